import Verif.Source.Syntax
/-!
# The source of the crate, as syntax trees

Generated from /repo/src by tools/source.py; do not edit.
-/

namespace Raki.Source

/-- `AOpcode::get_format`, src/instruction/a_extension.rs:66-91. -/
def AOpcode_get_format : Fn := ⟨.AOpcode, .get_format, [(.self, .other)], .other,
  (.match_ (.var .self)
    (.cons (.ctor .AOpcode .LR_W) (.variant .InstFormat .ALrFormat)
    (.cons (.or (.ctor .AOpcode .SC_W) (.or (.ctor .AOpcode .AMOSWAP_W) (.or (.ctor .AOpcode .AMOADD_W)
    (.or (.ctor .AOpcode .AMOXOR_W) (.or (.ctor .AOpcode .AMOAND_W) (.or (.ctor .AOpcode .AMOOR_W) (.or
    (.ctor .AOpcode .AMOMIN_W) (.or (.ctor .AOpcode .AMOMAX_W) (.or (.ctor .AOpcode .AMOMINU_W) (.or (.ctor
    .AOpcode .AMOMAXU_W) (.or (.ctor .AOpcode .LR_D) (.or (.ctor .AOpcode .SC_D) (.or (.ctor .AOpcode
    .AMOSWAP_D) (.or (.ctor .AOpcode .AMOADD_D) (.or (.ctor .AOpcode .AMOXOR_D) (.or (.ctor .AOpcode
    .AMOAND_D) (.or (.ctor .AOpcode .AMOOR_D) (.or (.ctor .AOpcode .AMOMIN_D) (.or (.ctor .AOpcode
    .AMOMAX_D) (.or (.ctor .AOpcode .AMOMINU_D) (.ctor .AOpcode .AMOMAXU_D))))))))))))))))))))) (.variant
    .InstFormat .AFormat)
    .nil)))⟩

/-- `BaseIOpcode::get_format`, src/instruction/base_i.rs:124-175. -/
def BaseIOpcode_get_format : Fn := ⟨.BaseIOpcode, .get_format, [(.self, .other)], .other,
  (.match_ (.var .self)
    (.cons (.or (.ctor .BaseIOpcode .BEQ) (.or (.ctor .BaseIOpcode .BNE) (.or (.ctor .BaseIOpcode .BLT)
    (.or (.ctor .BaseIOpcode .BGE) (.or (.ctor .BaseIOpcode .BLTU) (.ctor .BaseIOpcode .BGEU))))))
    (.variant .InstFormat .BFormat)
    (.cons (.or (.ctor .BaseIOpcode .JALR) (.or (.ctor .BaseIOpcode .LB) (.or (.ctor .BaseIOpcode .LH) (.or
    (.ctor .BaseIOpcode .LW) (.or (.ctor .BaseIOpcode .LBU) (.or (.ctor .BaseIOpcode .LHU) (.or (.ctor
    .BaseIOpcode .ADDI) (.or (.ctor .BaseIOpcode .SLTI) (.or (.ctor .BaseIOpcode .SLTIU) (.or (.ctor
    .BaseIOpcode .XORI) (.or (.ctor .BaseIOpcode .ORI) (.or (.ctor .BaseIOpcode .ANDI) (.or (.ctor
    .BaseIOpcode .LWU) (.or (.ctor .BaseIOpcode .LD) (.ctor .BaseIOpcode .ADDIW))))))))))))))) (.variant
    .InstFormat .IFormat)
    (.cons (.or (.ctor .BaseIOpcode .SLLI) (.or (.ctor .BaseIOpcode .SRLI) (.or (.ctor .BaseIOpcode .SRAI)
    (.or (.ctor .BaseIOpcode .SLLIW) (.or (.ctor .BaseIOpcode .SRLIW) (.ctor .BaseIOpcode .SRAIW))))))
    (.variant .InstFormat .RShamtFormat)
    (.cons (.or (.ctor .BaseIOpcode .ADD) (.or (.ctor .BaseIOpcode .SUB) (.or (.ctor .BaseIOpcode .SLL)
    (.or (.ctor .BaseIOpcode .SLT) (.or (.ctor .BaseIOpcode .SLTU) (.or (.ctor .BaseIOpcode .XOR) (.or
    (.ctor .BaseIOpcode .SRL) (.or (.ctor .BaseIOpcode .SRA) (.or (.ctor .BaseIOpcode .OR) (.or (.ctor
    .BaseIOpcode .AND) (.or (.ctor .BaseIOpcode .ADDW) (.or (.ctor .BaseIOpcode .SUBW) (.or (.ctor
    .BaseIOpcode .SLLW) (.or (.ctor .BaseIOpcode .SRLW) (.ctor .BaseIOpcode .SRAW))))))))))))))) (.variant
    .InstFormat .RFormat)
    (.cons (.or (.ctor .BaseIOpcode .SB) (.or (.ctor .BaseIOpcode .SH) (.or (.ctor .BaseIOpcode .SW) (.ctor
    .BaseIOpcode .SD)))) (.variant .InstFormat .SFormat)
    (.cons (.ctor .BaseIOpcode .JAL) (.variant .InstFormat .JFormat)
    (.cons (.or (.ctor .BaseIOpcode .LUI) (.ctor .BaseIOpcode .AUIPC)) (.variant .InstFormat .UFormat)
    (.cons (.or (.ctor .BaseIOpcode .ECALL) (.ctor .BaseIOpcode .EBREAK)) (.variant .InstFormat .NoOperand)
    .nil)))))))))⟩

/-- `COpcode::get_format`, src/instruction/c_extension.rs:91-120. -/
def COpcode_get_format : Fn := ⟨.COpcode, .get_format, [(.self, .other)], .other,
  (.match_ (.var .self)
    (.cons (.or (.ctor .COpcode .LW) (.ctor .COpcode .LD)) (.variant .InstFormat .ClFormat)
    (.cons (.ctor .COpcode .ADDI4SPN) (.variant .InstFormat .CiwFormat)
    (.cons (.or (.ctor .COpcode .SW) (.ctor .COpcode .SD)) (.variant .InstFormat .CsFormat)
    (.cons (.or (.ctor .COpcode .JAL) (.ctor .COpcode .J)) (.variant .InstFormat .CjFormat)
    (.cons (.or (.ctor .COpcode .BEQZ) (.or (.ctor .COpcode .ANDI) (.or (.ctor .COpcode .SRLI) (.or (.ctor
    .COpcode .SRAI) (.ctor .COpcode .BNEZ))))) (.variant .InstFormat .CbFormat)
    (.cons (.or (.ctor .COpcode .LI) (.or (.ctor .COpcode .ADDI) (.or (.ctor .COpcode .ADDIW) (.or (.ctor
    .COpcode .ADDI16SP) (.ctor .COpcode .LUI))))) (.variant .InstFormat .CiFormat)
    (.cons (.ctor .COpcode .NOP) (.variant .InstFormat .NoOperand)
    (.cons (.or (.ctor .COpcode .SUB) (.or (.ctor .COpcode .XOR) (.or (.ctor .COpcode .OR) (.or (.ctor
    .COpcode .AND) (.or (.ctor .COpcode .SUBW) (.ctor .COpcode .ADDW)))))) (.variant .InstFormat .CaFormat)
    (.cons (.or (.ctor .COpcode .LDSP) (.or (.ctor .COpcode .SLLI) (.ctor .COpcode .LWSP))) (.variant
    .InstFormat .CiFormat)
    (.cons (.or (.ctor .COpcode .SDSP) (.ctor .COpcode .SWSP)) (.variant .InstFormat .CssFormat)
    (.cons (.or (.ctor .COpcode .JR) (.or (.ctor .COpcode .JALR) (.or (.ctor .COpcode .MV) (.ctor .COpcode
    .ADD)))) (.variant .InstFormat .CrFormat)
    (.cons (.ctor .COpcode .EBREAK) (.variant .InstFormat .NoOperand)
    .nil)))))))))))))⟩

/-- `MOpcode::get_format`, src/instruction/m_extension.rs:48-64. -/
def MOpcode_get_format : Fn := ⟨.MOpcode, .get_format, [(.self, .other)], .other,
  (.match_ (.var .self)
    (.cons (.or (.ctor .MOpcode .MUL) (.or (.ctor .MOpcode .MULH) (.or (.ctor .MOpcode .MULHSU) (.or (.ctor
    .MOpcode .MULHU) (.or (.ctor .MOpcode .DIV) (.or (.ctor .MOpcode .DIVU) (.or (.ctor .MOpcode .REM) (.or
    (.ctor .MOpcode .REMU) (.or (.ctor .MOpcode .MULW) (.or (.ctor .MOpcode .DIVW) (.or (.ctor .MOpcode
    .DIVUW) (.or (.ctor .MOpcode .REMW) (.ctor .MOpcode .REMUW))))))))))))) (.variant .InstFormat .MFormat)
    .nil))⟩

/-- `PrivOpcode::get_format`, src/instruction/priv_extension.rs:28-33. -/
def PrivOpcode_get_format : Fn := ⟨.PrivOpcode, .get_format, [(.self, .other)], .other,
  (.match_ (.var .self)
    (.cons (.or (.ctor .PrivOpcode .SRET) (.or (.ctor .PrivOpcode .MRET) (.ctor .PrivOpcode .WFI)))
    (.variant .InstFormat .NoOperand)
    (.cons (.ctor .PrivOpcode .SFENCE_VMA) (.variant .InstFormat .RFormat)
    .nil)))⟩

/-- `ZicbozOpcode::get_format`, src/instruction/zicboz_extension.rs:24-28. -/
def ZicbozOpcode_get_format : Fn := ⟨.ZicbozOpcode, .get_format, [(.self, .other)], .other,
  (.match_ (.var .self)
    (.cons (.ctor .ZicbozOpcode .CBO_ZERO) (.variant .InstFormat .OnlyRs1)
    .nil))⟩

/-- `ZicfissOpcode::get_format`, src/instruction/zicfiss_extension.rs:41-49. -/
def ZicfissOpcode_get_format : Fn := ⟨.ZicfissOpcode, .get_format, [(.self, .other)], .other,
  (.match_ (.var .self)
    (.cons (.ctor .ZicfissOpcode .SSPUSH) (.variant .InstFormat .OnlyRs1)
    (.cons (.ctor .ZicfissOpcode .SSPOPCHK) (.variant .InstFormat .OnlyRs2)
    (.cons (.ctor .ZicfissOpcode .SSRDP) (.variant .InstFormat .OnlyRd)
    (.cons (.or (.ctor .ZicfissOpcode .SSAMOSWAP_W) (.ctor .ZicfissOpcode .SSAMOSWAP_D)) (.variant
    .InstFormat .AFormat)
    (.cons (.or (.ctor .ZicfissOpcode .C_SSPUSH) (.ctor .ZicfissOpcode .C_SSPOPCHK)) (.variant .InstFormat
    .NoOperand)
    .nil))))))⟩

/-- `ZicntrOpcode::get_format`, src/instruction/zicntr_extension.rs:37-46. -/
def ZicntrOpcode_get_format : Fn := ⟨.ZicntrOpcode, .get_format, [(.self, .other)], .other,
  (.match_ (.var .self)
    (.cons (.or (.ctor .ZicntrOpcode .RDCYCLE_H) (.or (.ctor .ZicntrOpcode .RDTIME_H) (.or (.ctor
    .ZicntrOpcode .RDINSTRET_H) (.or (.ctor .ZicntrOpcode .RDCYCLE) (.or (.ctor .ZicntrOpcode .RDTIME)
    (.ctor .ZicntrOpcode .RDINSTRET)))))) (.variant .InstFormat .OnlyRd)
    .nil))⟩

/-- `ZicsrOpcode::get_format`, src/instruction/zicsr_extension.rs:32-39. -/
def ZicsrOpcode_get_format : Fn := ⟨.ZicsrOpcode, .get_format, [(.self, .other)], .other,
  (.match_ (.var .self)
    (.cons (.or (.ctor .ZicsrOpcode .CSRRW) (.or (.ctor .ZicsrOpcode .CSRRS) (.ctor .ZicsrOpcode .CSRRC)))
    (.variant .InstFormat .CsrFormat)
    (.cons (.or (.ctor .ZicsrOpcode .CSRRWI) (.or (.ctor .ZicsrOpcode .CSRRSI) (.ctor .ZicsrOpcode
    .CSRRCI))) (.variant .InstFormat .CsrUiFormat)
    .nil)))⟩

/-- `ZifenceiOpcode::get_format`, src/instruction/zifencei_extension.rs:22-26. -/
def ZifenceiOpcode_get_format : Fn := ⟨.ZifenceiOpcode, .get_format, [(.self, .other)], .other,
  (.match_ (.var .self)
    (.cons (.ctor .ZifenceiOpcode .FENCE) (.variant .InstFormat .NoOperand)
    .nil))⟩

/-- `OpcodeKind::get_format`, src/instruction.rs:482-495. -/
def OpcodeKind_get_format : Fn := ⟨.OpcodeKind, .get_format, [(.self, .other)], .other,
  (.match_ (.var .self)
    (.cons (.ctor1 .OpcodeKind .BaseI (.var .opc)) (.method (.var .opc) .get_format .nil)
    (.cons (.ctor1 .OpcodeKind .M (.var .opc)) (.method (.var .opc) .get_format .nil)
    (.cons (.ctor1 .OpcodeKind .A (.var .opc)) (.method (.var .opc) .get_format .nil)
    (.cons (.ctor1 .OpcodeKind .C (.var .opc)) (.method (.var .opc) .get_format .nil)
    (.cons (.ctor1 .OpcodeKind .Zifencei (.var .opc)) (.method (.var .opc) .get_format .nil)
    (.cons (.ctor1 .OpcodeKind .Zicboz (.var .opc)) (.method (.var .opc) .get_format .nil)
    (.cons (.ctor1 .OpcodeKind .Zicsr (.var .opc)) (.method (.var .opc) .get_format .nil)
    (.cons (.ctor1 .OpcodeKind .Zicfiss (.var .opc)) (.method (.var .opc) .get_format .nil)
    (.cons (.ctor1 .OpcodeKind .Zicntr (.var .opc)) (.method (.var .opc) .get_format .nil)
    (.cons (.ctor1 .OpcodeKind .Priv (.var .opc)) (.method (.var .opc) .get_format .nil)
    .nil)))))))))))⟩

/-- `u16::set`, src/decode/inst_16.rs:89-96. -/
def u16_set : Fn := ⟨.u16, .«set», [(.self, .u16), (.mask, (.array .u32))], .u32,
  (.block (.let_ .inst .u32 (.lit 0)
    (.forRevEnum .i .m (.var .mask) .inst (.bin .shl (.bin .and (.bin .shr (.from_ .u32 (.var .self)) (.var
    .i)) (.lit 1)) (.var .m))
    (.done (.var .inst)))))⟩

/-- `u32::set`, src/decode/inst_32.rs:174-181. -/
def u32_set : Fn := ⟨.u32, .«set», [(.self, .u32), (.mask, (.array .u32))], .u32,
  (.block (.let_ .inst .u32 (.lit 0)
    (.forRevEnum .i .m (.var .mask) .inst (.bin .shl (.bin .and (.bin .shr (.var .self) (.var .i)) (.lit
    1)) (.var .m))
    (.done (.var .inst)))))⟩

/-- `u16::slice`, src/decode/inst_16.rs:77-80. -/
def u16_slice : Fn := ⟨.u16, .slice, [(.self, .u16), (.«end», .u32), (.start, .u32)], .u16,
  (.block (.assert (.bin .ge (.var .«end») (.var .start))
    (.done (.bin .and (.bin .shr (.var .self) (.var .start)) (.bin .sub (.pow (.litT 2 .u16) (.bin .add
    (.bin .sub (.var .«end») (.var .start)) (.lit 1))) (.lit 1))))))⟩

/-- `u32::slice`, src/decode/inst_32.rs:124-127. -/
def u32_slice : Fn := ⟨.u32, .slice, [(.self, .u32), (.«end», .u32), (.start, .u32)], .u32,
  (.block (.assert (.bin .ge (.var .«end») (.var .start))
    (.done (.bin .and (.bin .shr (.var .self) (.var .start)) (.bin .sub (.pow (.litT 2 .u32) (.bin .add
    (.bin .sub (.var .«end») (.var .start)) (.lit 1))) (.lit 1))))))⟩

/-- `u16::to_signed_nbit`, the default method of `DecodeUtil`, src/decode.rs:157-164. -/
def u16_to_signed_nbit : Fn := ⟨.u16, .to_signed_nbit, [(.self, .other), (.imm32, .i32), (.bit_size, .u32)], .i32,
  (.block (.let_ .imm32 .other (.bin .and (.var .imm32) (.bin .sub (.pow (.litT 2 .i32) (.var .bit_size))
  (.lit 1)))
    (.done (.ite (.bin .eq (.bin .and (.bin .shr (.var .imm32) (.bin .sub (.var .bit_size) (.lit 1))) (.lit
    1)) (.lit 1)) (.bin .sub (.var .imm32) (.pow (.litT 2 .i32) (.var .bit_size))) (.var .imm32)))))⟩

/-- `u32::to_signed_nbit`, the default method of `DecodeUtil`, src/decode.rs:157-164. -/
def u32_to_signed_nbit : Fn := ⟨.u32, .to_signed_nbit, [(.self, .other), (.imm32, .i32), (.bit_size, .u32)], .i32,
  (.block (.let_ .imm32 .other (.bin .and (.var .imm32) (.bin .sub (.pow (.litT 2 .i32) (.var .bit_size))
  (.lit 1)))
    (.done (.ite (.bin .eq (.bin .and (.bin .shr (.var .imm32) (.bin .sub (.var .bit_size) (.lit 1))) (.lit
    1)) (.lit 1)) (.bin .sub (.var .imm32) (.pow (.litT 2 .i32) (.var .bit_size))) (.var .imm32)))))⟩

/-- `c_extension::bit_16::parse_imm`, src/decode/c_extension.rs:199-263. -/
def c_extension_bit_16_parse_imm : Fn := ⟨.c_extension_bit_16, .parse_imm, [(.inst, .u16), (.opkind, .other)], (.option .i32),
  (.block (.letClosure .q0_uimm (.bin .or (.method (.method (.var .inst) .slice (.cons (.lit 12) (.cons
  (.lit 10) .nil))) .«set» (.cons (.array (.cons (.lit 5) (.cons (.lit 4) (.cons (.lit 3) .nil)))) .nil))
  (.method (.method (.var .inst) .slice (.cons (.lit 6) (.cons (.lit 5) .nil))) .«set» (.cons (.array
  (.cons (.lit 2) (.cons (.lit 6) .nil))) .nil)))
    (.letClosure .q0_uimm_64 (.bin .or (.method (.method (.var .inst) .slice (.cons (.lit 12) (.cons (.lit
    10) .nil))) .«set» (.cons (.array (.cons (.lit 5) (.cons (.lit 4) (.cons (.lit 3) .nil)))) .nil))
    (.method (.method (.var .inst) .slice (.cons (.lit 6) (.cons (.lit 5) .nil))) .«set» (.cons (.array
    (.cons (.lit 7) (.cons (.lit 6) .nil))) .nil)))
    (.letClosure .q0_nzuimm (.method (.method (.var .inst) .slice (.cons (.lit 12) (.cons (.lit 5) .nil)))
    .«set» (.cons (.array (.cons (.lit 5) (.cons (.lit 4) (.cons (.lit 9) (.cons (.lit 8) (.cons (.lit 7)
    (.cons (.lit 6) (.cons (.lit 2) (.cons (.lit 3) .nil))))))))) .nil))
    (.letClosure .q1_nzuimm (.bin .or (.method (.method (.var .inst) .slice (.cons (.lit 6) (.cons (.lit 2)
    .nil))) .«set» (.cons (.array (.cons (.lit 4) (.cons (.lit 3) (.cons (.lit 2) (.cons (.lit 1) (.cons
    (.lit 0) .nil)))))) .nil)) (.method (.method (.var .inst) .slice (.cons (.lit 12) (.cons (.lit 12)
    .nil))) .«set» (.cons (.array (.cons (.lit 5) .nil)) .nil)))
    (.letClosure .q1_nzimm (.block (.let_ .imm16 .other (.cast (.bin .or (.method (.method (.var .inst)
    .slice (.cons (.lit 6) (.cons (.lit 2) .nil))) .«set» (.cons (.array (.cons (.lit 4) (.cons (.lit 3)
    (.cons (.lit 2) (.cons (.lit 1) (.cons (.lit 0) .nil)))))) .nil)) (.method (.method (.var .inst) .slice
    (.cons (.lit 12) (.cons (.lit 12) .nil))) .«set» (.cons (.array (.cons (.lit 5) .nil)) .nil))) .i32)
    (.done (.method (.var .inst) .to_signed_nbit (.cons (.var .imm16) (.cons (.lit 6) .nil))))))
    (.letClosure .q1_imm (.block (.let_ .imm16 .other (.cast (.bin .or (.method (.method (.var .inst)
    .slice (.cons (.lit 6) (.cons (.lit 2) .nil))) .«set» (.cons (.array (.cons (.lit 4) (.cons (.lit 3)
    (.cons (.lit 2) (.cons (.lit 1) (.cons (.lit 0) .nil)))))) .nil)) (.method (.method (.var .inst) .slice
    (.cons (.lit 12) (.cons (.lit 12) .nil))) .«set» (.cons (.array (.cons (.lit 5) .nil)) .nil))) .i32)
    (.done (.method (.var .inst) .to_signed_nbit (.cons (.var .imm16) (.cons (.lit 6) .nil))))))
    (.letClosure .q1_j_imm (.block (.let_ .imm16 .other (.cast (.method (.method (.var .inst) .slice (.cons
    (.lit 12) (.cons (.lit 2) .nil))) .«set» (.cons (.array (.cons (.lit 11) (.cons (.lit 4) (.cons (.lit
    9) (.cons (.lit 8) (.cons (.lit 10) (.cons (.lit 6) (.cons (.lit 7) (.cons (.lit 3) (.cons (.lit 2)
    (.cons (.lit 1) (.cons (.lit 5) .nil)))))))))))) .nil)) .i32)
    (.done (.method (.var .inst) .to_signed_nbit (.cons (.var .imm16) (.cons (.lit 12) .nil))))))
    (.letClosure .q1_b_imm (.block (.let_ .imm16 .other (.cast (.bin .or (.method (.method (.var .inst)
    .slice (.cons (.lit 6) (.cons (.lit 2) .nil))) .«set» (.cons (.array (.cons (.lit 7) (.cons (.lit 6)
    (.cons (.lit 2) (.cons (.lit 1) (.cons (.lit 5) .nil)))))) .nil)) (.method (.method (.var .inst) .slice
    (.cons (.lit 12) (.cons (.lit 10) .nil))) .«set» (.cons (.array (.cons (.lit 8) (.cons (.lit 4) (.cons
    (.lit 3) .nil)))) .nil))) .i32)
    (.done (.method (.var .inst) .to_signed_nbit (.cons (.var .imm16) (.cons (.lit 9) .nil))))))
    (.letClosure .q1_16sp_nzimm (.block (.let_ .imm16 .other (.cast (.bin .or (.method (.method (.var
    .inst) .slice (.cons (.lit 6) (.cons (.lit 2) .nil))) .«set» (.cons (.array (.cons (.lit 4) (.cons
    (.lit 6) (.cons (.lit 8) (.cons (.lit 7) (.cons (.lit 5) .nil)))))) .nil)) (.method (.method (.var
    .inst) .slice (.cons (.lit 12) (.cons (.lit 12) .nil))) .«set» (.cons (.array (.cons (.lit 9) .nil))
    .nil))) .i32)
    (.done (.method (.var .inst) .to_signed_nbit (.cons (.var .imm16) (.cons (.lit 10) .nil))))))
    (.letClosure .q1_lui_imm (.block (.let_ .imm16 .other (.cast (.bin .or (.method (.method (.var .inst)
    .slice (.cons (.lit 6) (.cons (.lit 2) .nil))) .«set» (.cons (.array (.cons (.lit 16) (.cons (.lit 15)
    (.cons (.lit 14) (.cons (.lit 13) (.cons (.lit 12) .nil)))))) .nil)) (.method (.method (.var .inst)
    .slice (.cons (.lit 12) (.cons (.lit 12) .nil))) .«set» (.cons (.array (.cons (.lit 17) .nil)) .nil)))
    .i32)
    (.done (.method (.var .inst) .to_signed_nbit (.cons (.var .imm16) (.cons (.lit 18) .nil))))))
    (.letClosure .q2_imm (.cast (.bin .or (.method (.method (.var .inst) .slice (.cons (.lit 6) (.cons
    (.lit 2) .nil))) .«set» (.cons (.array (.cons (.lit 4) (.cons (.lit 3) (.cons (.lit 2) (.cons (.lit 1)
    (.cons (.lit 0) .nil)))))) .nil)) (.method (.method (.var .inst) .slice (.cons (.lit 12) (.cons (.lit
    12) .nil))) .«set» (.cons (.array (.cons (.lit 5) .nil)) .nil))) .i32)
    (.letClosure .q2_lwsp_imm (.cast (.bin .or (.method (.method (.var .inst) .slice (.cons (.lit 6) (.cons
    (.lit 2) .nil))) .«set» (.cons (.array (.cons (.lit 4) (.cons (.lit 3) (.cons (.lit 2) (.cons (.lit 7)
    (.cons (.lit 6) .nil)))))) .nil)) (.method (.method (.var .inst) .slice (.cons (.lit 12) (.cons (.lit
    12) .nil))) .«set» (.cons (.array (.cons (.lit 5) .nil)) .nil))) .i32)
    (.letClosure .q2_ldsp_imm (.cast (.bin .or (.method (.method (.var .inst) .slice (.cons (.lit 6) (.cons
    (.lit 2) .nil))) .«set» (.cons (.array (.cons (.lit 4) (.cons (.lit 3) (.cons (.lit 8) (.cons (.lit 7)
    (.cons (.lit 6) .nil)))))) .nil)) (.method (.method (.var .inst) .slice (.cons (.lit 12) (.cons (.lit
    12) .nil))) .«set» (.cons (.array (.cons (.lit 5) .nil)) .nil))) .i32)
    (.letClosure .q2_swsp_imm (.cast (.method (.method (.var .inst) .slice (.cons (.lit 12) (.cons (.lit 7)
    .nil))) .«set» (.cons (.array (.cons (.lit 5) (.cons (.lit 4) (.cons (.lit 3) (.cons (.lit 2) (.cons
    (.lit 7) (.cons (.lit 6) .nil))))))) .nil)) .i32)
    (.letClosure .q2_sdsp_imm (.cast (.method (.method (.var .inst) .slice (.cons (.lit 12) (.cons (.lit 7)
    .nil))) .«set» (.cons (.array (.cons (.lit 5) (.cons (.lit 4) (.cons (.lit 3) (.cons (.lit 8) (.cons
    (.lit 7) (.cons (.lit 6) .nil))))))) .nil)) .i32)
    (.done (.match_ (.var .opkind)
    (.cons (.ctor .COpcode .ADDI4SPN) (.variantOf .Option .Some (.cast (.callClosure .q0_nzuimm) .i32))
    (.cons (.or (.ctor .COpcode .LW) (.ctor .COpcode .SW)) (.variantOf .Option .Some (.cast (.callClosure
    .q0_uimm) .i32))
    (.cons (.or (.ctor .COpcode .LD) (.ctor .COpcode .SD)) (.variantOf .Option .Some (.cast (.callClosure
    .q0_uimm_64) .i32))
    (.cons (.or (.ctor .COpcode .ADDIW) (.or (.ctor .COpcode .LI) (.ctor .COpcode .ANDI))) (.variantOf
    .Option .Some (.callClosure .q1_imm))
    (.cons (.or (.ctor .COpcode .NOP) (.ctor .COpcode .ADDI)) (.variantOf .Option .Some (.callClosure
    .q1_nzimm))
    (.cons (.or (.ctor .COpcode .SRLI) (.ctor .COpcode .SRAI)) (.variantOf .Option .Some (.cast
    (.callClosure .q1_nzuimm) .i32))
    (.cons (.or (.ctor .COpcode .JAL) (.ctor .COpcode .J)) (.variantOf .Option .Some (.callClosure
    .q1_j_imm))
    (.cons (.or (.ctor .COpcode .BEQZ) (.ctor .COpcode .BNEZ)) (.variantOf .Option .Some (.callClosure
    .q1_b_imm))
    (.cons (.ctor .COpcode .LUI) (.variantOf .Option .Some (.callClosure .q1_lui_imm))
    (.cons (.ctor .COpcode .ADDI16SP) (.variantOf .Option .Some (.callClosure .q1_16sp_nzimm))
    (.cons (.ctor .COpcode .SLLI) (.variantOf .Option .Some (.callClosure .q2_imm))
    (.cons (.ctor .COpcode .LWSP) (.variantOf .Option .Some (.callClosure .q2_lwsp_imm))
    (.cons (.ctor .COpcode .LDSP) (.variantOf .Option .Some (.callClosure .q2_ldsp_imm))
    (.cons (.ctor .COpcode .SWSP) (.variantOf .Option .Some (.callClosure .q2_swsp_imm))
    (.cons (.ctor .COpcode .SDSP) (.variantOf .Option .Some (.callClosure .q2_sdsp_imm))
    (.cons .wild (.variant .Option .None)
    .nil))))))))))))))))))))))))))))))))))⟩

/-- `zicfiss_extension::bit_16::parse_imm`, src/decode/zicfiss_extension.rs:115-117. -/
def zicfiss_extension_bit_16_parse_imm : Fn := ⟨.zicfiss_extension_bit_16, .parse_imm, [(._inst, .u16), (._opkind, .other)], (.option .i32),
  (.variant .Option .None)⟩

/-- `u16::parse_imm`, src/decode/inst_16.rs:67-73. -/
def u16_parse_imm : Fn := ⟨.u16, .parse_imm, [(.self, .u16), (.opkind, .other), (._isa, .other)], (.result (.option .i32)),
  (.match_ (.var .opkind)
    (.cons (.ctor1 .OpcodeKind .C (.var .opc)) (.variantOf .Result .Ok (.call .c_extension_bit_16
    .parse_imm (.cons (.var .self) (.cons (.var .opc) .nil))))
    (.cons (.ctor1 .OpcodeKind .Zicfiss (.var .opc)) (.variantOf .Result .Ok (.call
    .zicfiss_extension_bit_16 .parse_imm (.cons (.var .self) (.cons (.var .opc) .nil))))
    (.cons .wild (.variantOf .Result .Err (.variant .DecodingError .Not16BitInst))
    .nil))))⟩

/-- `a_extension::bit_32::parse_imm`, src/decode/a_extension.rs:137-164. -/
def a_extension_bit_32_parse_imm : Fn := ⟨.a_extension_bit_32, .parse_imm, [(.inst, .u32), (.opkind, .other)], (.option .i32),
  (.block (.letClosure .aq_and_rl (.cast (.method (.var .inst) .slice (.cons (.lit 26) (.cons (.lit 25)
  .nil))) .i32)
    (.done (.match_ (.var .opkind)
    (.cons (.or (.ctor .AOpcode .LR_W) (.or (.ctor .AOpcode .SC_W) (.or (.ctor .AOpcode .AMOSWAP_W) (.or
    (.ctor .AOpcode .AMOADD_W) (.or (.ctor .AOpcode .AMOXOR_W) (.or (.ctor .AOpcode .AMOAND_W) (.or (.ctor
    .AOpcode .AMOOR_W) (.or (.ctor .AOpcode .AMOMIN_W) (.or (.ctor .AOpcode .AMOMAX_W) (.or (.ctor .AOpcode
    .AMOMINU_W) (.or (.ctor .AOpcode .AMOMAXU_W) (.or (.ctor .AOpcode .LR_D) (.or (.ctor .AOpcode .SC_D)
    (.or (.ctor .AOpcode .AMOSWAP_D) (.or (.ctor .AOpcode .AMOADD_D) (.or (.ctor .AOpcode .AMOXOR_D) (.or
    (.ctor .AOpcode .AMOAND_D) (.or (.ctor .AOpcode .AMOOR_D) (.or (.ctor .AOpcode .AMOMIN_D) (.or (.ctor
    .AOpcode .AMOMAX_D) (.or (.ctor .AOpcode .AMOMINU_D) (.ctor .AOpcode .AMOMAXU_D))))))))))))))))))))))
    (.variantOf .Option .Some (.callClosure .aq_and_rl))
    .nil)))))⟩

/-- `base_i::bit_32::parse_imm`, src/decode/base_i.rs:275-337. -/
def base_i_bit_32_parse_imm : Fn := ⟨.base_i_bit_32, .parse_imm, [(.inst, .u32), (.opkind, .other), (.isa, .other)], (.option .i32),
  (.block (.letClosure .U_type (.cast (.method (.var .inst) .slice (.cons (.lit 31) (.cons (.lit 12)
  .nil))) .i32)
    (.letClosure .I_type (.block (.let_ .imm32 .other (.cast (.method (.var .inst) .slice (.cons (.lit 31)
    (.cons (.lit 20) .nil))) .i32)
    (.done (.method (.var .inst) .to_signed_nbit (.cons (.var .imm32) (.cons (.lit 12) .nil))))))
    (.letClosure .S_type (.block (.let_ .imm32 .other (.cast (.bin .or (.method (.method (.var .inst)
    .slice (.cons (.lit 11) (.cons (.lit 7) .nil))) .«set» (.cons (.array (.cons (.lit 4) (.cons (.lit 3)
    (.cons (.lit 2) (.cons (.lit 1) (.cons (.lit 0) .nil)))))) .nil)) (.method (.method (.var .inst) .slice
    (.cons (.lit 31) (.cons (.lit 25) .nil))) .«set» (.cons (.array (.cons (.lit 11) (.cons (.lit 10)
    (.cons (.lit 9) (.cons (.lit 8) (.cons (.lit 7) (.cons (.lit 6) (.cons (.lit 5) .nil)))))))) .nil)))
    .i32)
    (.done (.method (.var .inst) .to_signed_nbit (.cons (.var .imm32) (.cons (.lit 12) .nil))))))
    (.letClosure .B_type (.block (.let_ .imm32 .other (.cast (.bin .or (.method (.method (.var .inst)
    .slice (.cons (.lit 11) (.cons (.lit 7) .nil))) .«set» (.cons (.array (.cons (.lit 4) (.cons (.lit 3)
    (.cons (.lit 2) (.cons (.lit 1) (.cons (.lit 11) .nil)))))) .nil)) (.method (.method (.var .inst)
    .slice (.cons (.lit 31) (.cons (.lit 25) .nil))) .«set» (.cons (.array (.cons (.lit 12) (.cons (.lit
    10) (.cons (.lit 9) (.cons (.lit 8) (.cons (.lit 7) (.cons (.lit 6) (.cons (.lit 5) .nil))))))))
    .nil))) .i32)
    (.done (.method (.var .inst) .to_signed_nbit (.cons (.var .imm32) (.cons (.lit 13) .nil))))))
    (.letClosure .J_type (.block (.let_ .imm32 .other (.cast (.method (.method (.var .inst) .slice (.cons
    (.lit 31) (.cons (.lit 12) .nil))) .«set» (.cons (.array (.cons (.lit 20) (.cons (.lit 10) (.cons (.lit
    9) (.cons (.lit 8) (.cons (.lit 7) (.cons (.lit 6) (.cons (.lit 5) (.cons (.lit 4) (.cons (.lit 3)
    (.cons (.lit 2) (.cons (.lit 1) (.cons (.lit 11) (.cons (.lit 19) (.cons (.lit 18) (.cons (.lit 17)
    (.cons (.lit 16) (.cons (.lit 15) (.cons (.lit 14) (.cons (.lit 13) (.cons (.lit 12)
    .nil))))))))))))))))))))) .nil)) .i32)
    (.done (.method (.var .inst) .to_signed_nbit (.cons (.var .imm32) (.cons (.lit 21) .nil))))))
    (.letClosure .shamt5 (.method (.var .inst) .slice (.cons (.lit 24) (.cons (.lit 20) .nil)))
    (.letClosure .shamt6 (.method (.var .inst) .slice (.cons (.lit 25) (.cons (.lit 20) .nil)))
    (.done (.match_ (.var .opkind)
    (.cons (.or (.ctor .BaseIOpcode .LUI) (.ctor .BaseIOpcode .AUIPC)) (.variantOf .Option .Some
    (.callClosure .U_type))
    (.cons (.ctor .BaseIOpcode .JAL) (.variantOf .Option .Some (.callClosure .J_type))
    (.cons (.or (.ctor .BaseIOpcode .BEQ) (.or (.ctor .BaseIOpcode .BNE) (.or (.ctor .BaseIOpcode .BLT)
    (.or (.ctor .BaseIOpcode .BGE) (.or (.ctor .BaseIOpcode .BLTU) (.ctor .BaseIOpcode .BGEU))))))
    (.variantOf .Option .Some (.callClosure .B_type))
    (.cons (.or (.ctor .BaseIOpcode .JALR) (.or (.ctor .BaseIOpcode .LB) (.or (.ctor .BaseIOpcode .LH) (.or
    (.ctor .BaseIOpcode .LW) (.or (.ctor .BaseIOpcode .LBU) (.or (.ctor .BaseIOpcode .LHU) (.or (.ctor
    .BaseIOpcode .ADDI) (.or (.ctor .BaseIOpcode .SLTI) (.or (.ctor .BaseIOpcode .SLTIU) (.or (.ctor
    .BaseIOpcode .XORI) (.or (.ctor .BaseIOpcode .ORI) (.or (.ctor .BaseIOpcode .ANDI) (.or (.ctor
    .BaseIOpcode .LWU) (.or (.ctor .BaseIOpcode .ADDIW) (.ctor .BaseIOpcode .LD))))))))))))))) (.variantOf
    .Option .Some (.callClosure .I_type))
    (.cons (.or (.ctor .BaseIOpcode .SD) (.or (.ctor .BaseIOpcode .SB) (.or (.ctor .BaseIOpcode .SH) (.ctor
    .BaseIOpcode .SW)))) (.variantOf .Option .Some (.callClosure .S_type))
    (.cons (.or (.ctor .BaseIOpcode .SRAI) (.or (.ctor .BaseIOpcode .SLLI) (.ctor .BaseIOpcode .SRLI)))
    (.match_ (.var .isa)
    (.cons (.ctor .Isa .Rv32) (.variantOf .Option .Some (.cast (.callClosure .shamt5) .i32))
    (.cons (.ctor .Isa .Rv64) (.variantOf .Option .Some (.cast (.callClosure .shamt6) .i32))
    .nil)))
    (.cons (.or (.ctor .BaseIOpcode .SLLIW) (.or (.ctor .BaseIOpcode .SRLIW) (.ctor .BaseIOpcode .SRAIW)))
    (.variantOf .Option .Some (.cast (.callClosure .shamt5) .i32))
    (.cons .wild (.variant .Option .None)
    .nil))))))))))))))))))⟩

/-- `m_extension::bit_32::parse_imm`, src/decode/m_extension.rs:98-100. -/
def m_extension_bit_32_parse_imm : Fn := ⟨.m_extension_bit_32, .parse_imm, [(._inst, .u32), (._opkind, .other)], (.option .i32),
  (.variant .Option .None)⟩

/-- `priv_extension::bit_32::parse_imm`, src/decode/priv_extension.rs:45-47. -/
def priv_extension_bit_32_parse_imm : Fn := ⟨.priv_extension_bit_32, .parse_imm, [(._inst, .u32), (._opkind, .other)], (.option .i32),
  (.variant .Option .None)⟩

/-- `zicboz_extension::bit_32::parse_imm`, src/decode/zicboz_extension.rs:45-47. -/
def zicboz_extension_bit_32_parse_imm : Fn := ⟨.zicboz_extension_bit_32, .parse_imm, [(._inst, .u32), (._opkind, .other)], (.option .i32),
  (.variant .Option .None)⟩

/-- `zicfiss_extension::bit_32::parse_imm`, src/decode/zicfiss_extension.rs:70-79. -/
def zicfiss_extension_bit_32_parse_imm : Fn := ⟨.zicfiss_extension_bit_32, .parse_imm, [(._inst, .u32), (.opkind, .other)], (.option .i32),
  (.match_ (.var .opkind)
    (.cons (.or (.ctor .ZicfissOpcode .SSPUSH) (.or (.ctor .ZicfissOpcode .SSPOPCHK) (.or (.ctor
    .ZicfissOpcode .SSRDP) (.or (.ctor .ZicfissOpcode .SSAMOSWAP_W) (.ctor .ZicfissOpcode .SSAMOSWAP_D)))))
    (.variant .Option .None)
    (.cons (.or (.ctor .ZicfissOpcode .C_SSPUSH) (.ctor .ZicfissOpcode .C_SSPOPCHK)) .unreachable
    .nil)))⟩

/-- `zicntr_extension::bit_32::parse_imm`, src/decode/zicntr_extension.rs:65-74. -/
def zicntr_extension_bit_32_parse_imm : Fn := ⟨.zicntr_extension_bit_32, .parse_imm, [(._inst, .u32), (.opkind, .other)], (.option .i32),
  (.match_ (.var .opkind)
    (.cons (.or (.ctor .ZicntrOpcode .RDCYCLE) (.or (.ctor .ZicntrOpcode .RDTIME) (.or (.ctor .ZicntrOpcode
    .RDINSTRET) (.or (.ctor .ZicntrOpcode .RDCYCLE_H) (.or (.ctor .ZicntrOpcode .RDTIME_H) (.ctor
    .ZicntrOpcode .RDINSTRET_H)))))) (.variant .Option .None)
    .nil))⟩

/-- `zicsr_extension::bit_32::parse_imm`, src/decode/zicsr_extension.rs:62-68. -/
def zicsr_extension_bit_32_parse_imm : Fn := ⟨.zicsr_extension_bit_32, .parse_imm, [(.inst, .u32), (.opkind, .other)], (.option .i32),
  (.block (.let_ .uimm .u32 (.method (.var .inst) .slice (.cons (.lit 19) (.cons (.lit 15) .nil)))
    (.done (.match_ (.var .opkind)
    (.cons (.or (.ctor .ZicsrOpcode .CSRRWI) (.or (.ctor .ZicsrOpcode .CSRRSI) (.ctor .ZicsrOpcode
    .CSRRCI))) (.variantOf .Option .Some (.cast (.var .uimm) .i32))
    (.cons .wild (.variant .Option .None)
    .nil))))))⟩

/-- `zifencei_extension::bit_32::parse_imm`, src/decode/zifencei_extension.rs:40-45. -/
def zifencei_extension_bit_32_parse_imm : Fn := ⟨.zifencei_extension_bit_32, .parse_imm, [(.inst, .u32), (.opkind, .other)], (.option .i32),
  (.block (.let_ .fm_pred_succ .u32 (.method (.var .inst) .slice (.cons (.lit 31) (.cons (.lit 20) .nil)))
    (.done (.match_ (.var .opkind)
    (.cons (.ctor .ZifenceiOpcode .FENCE) (.variantOf .Option .Some (.cast (.var .fm_pred_succ) .i32))
    .nil)))))⟩

/-- `u32::parse_imm`, src/decode/inst_32.rs:107-120. -/
def u32_parse_imm : Fn := ⟨.u32, .parse_imm, [(.self, .u32), (.opkind, .other), (.isa, .other)], (.result (.option .i32)),
  (.match_ (.var .opkind)
    (.cons (.ctor1 .OpcodeKind .BaseI (.var .opc)) (.variantOf .Result .Ok (.call .base_i_bit_32 .parse_imm
    (.cons (.var .self) (.cons (.var .opc) (.cons (.var .isa) .nil)))))
    (.cons (.ctor1 .OpcodeKind .M (.var .opc)) (.variantOf .Result .Ok (.call .m_extension_bit_32
    .parse_imm (.cons (.var .self) (.cons (.var .opc) .nil))))
    (.cons (.ctor1 .OpcodeKind .A (.var .opc)) (.variantOf .Result .Ok (.call .a_extension_bit_32
    .parse_imm (.cons (.var .self) (.cons (.var .opc) .nil))))
    (.cons (.ctor1 .OpcodeKind .Zifencei (.var .opc)) (.variantOf .Result .Ok (.call
    .zifencei_extension_bit_32 .parse_imm (.cons (.var .self) (.cons (.var .opc) .nil))))
    (.cons (.ctor1 .OpcodeKind .Zicsr (.var .opc)) (.variantOf .Result .Ok (.call .zicsr_extension_bit_32
    .parse_imm (.cons (.var .self) (.cons (.var .opc) .nil))))
    (.cons (.ctor1 .OpcodeKind .Zicfiss (.var .opc)) (.variantOf .Result .Ok (.call
    .zicfiss_extension_bit_32 .parse_imm (.cons (.var .self) (.cons (.var .opc) .nil))))
    (.cons (.ctor1 .OpcodeKind .Zicntr (.var .opc)) (.variantOf .Result .Ok (.call .zicntr_extension_bit_32
    .parse_imm (.cons (.var .self) (.cons (.var .opc) .nil))))
    (.cons (.ctor1 .OpcodeKind .Zicboz (.var .opc)) (.variantOf .Result .Ok (.call .zicboz_extension_bit_32
    .parse_imm (.cons (.var .self) (.cons (.var .opc) .nil))))
    (.cons (.ctor1 .OpcodeKind .Priv (.var .opc)) (.variantOf .Result .Ok (.call .priv_extension_bit_32
    .parse_imm (.cons (.var .self) (.cons (.var .opc) .nil))))
    (.cons (.ctor1 .OpcodeKind .C .wild) (.variantOf .Result .Err (.variant .DecodingError .Not32BitInst))
    .nil)))))))))))⟩

/-- `decode::only_rv64`, src/decode.rs:21-26. -/
def decode_only_rv64 : Fn := ⟨.decode, .only_rv64, [(.opcode, .other), (.isa, .other)], (.result .other),
  (.match_ (.var .isa)
    (.cons (.ctor .Isa .Rv32) (.variantOf .Result .Err (.variant .DecodingError .OnlyRv64Inst))
    (.cons (.ctor .Isa .Rv64) (.variantOf .Result .Ok (.var .opcode))
    .nil)))⟩

/-- `c_extension::bit_16::quadrant0`, src/decode/c_extension.rs:6-15. -/
def c_extension_bit_16_quadrant0 : Fn := ⟨.c_extension_bit_16, .quadrant0, [(._inst, .u16), (.opmap, .u8), (.isa, .other)], (.result .other),
  (.match_ (.var .opmap)
    (.cons (.lit 0) (.variantOf .Result .Ok (.variant .COpcode .ADDI4SPN))
    (.cons (.lit 2) (.variantOf .Result .Ok (.variant .COpcode .LW))
    (.cons (.lit 3) (.call .decode .only_rv64 (.cons (.variant .COpcode .LD) (.cons (.var .isa) .nil)))
    (.cons (.lit 6) (.variantOf .Result .Ok (.variant .COpcode .SW))
    (.cons (.lit 7) (.call .decode .only_rv64 (.cons (.variant .COpcode .SD) (.cons (.var .isa) .nil)))
    (.cons .wild (.variantOf .Result .Err (.variant .DecodingError .InvalidOpcode))
    .nil)))))))⟩

/-- `c_extension::bit_16::quadrant1`, src/decode/c_extension.rs:17-63. -/
def c_extension_bit_16_quadrant1 : Fn := ⟨.c_extension_bit_16, .quadrant1, [(.inst, .u16), (.opmap, .u8), (.isa, .other)], (.result .other),
  (.block (.let_ .sr_flag .u8 (.unwrap (.tryFrom .u8 (.method (.var .inst) .slice (.cons (.lit 11) (.cons
  (.lit 10) .nil)))))
    (.let_ .lo_flag .u8 (.unwrap (.tryFrom .u8 (.method (.var .inst) .slice (.cons (.lit 6) (.cons (.lit 5)
    .nil)))))
    (.let_ .mi_flag .u8 (.unwrap (.tryFrom .u8 (.method (.var .inst) .slice (.cons (.lit 11) (.cons (.lit
    7) .nil)))))
    (.let_ .bit_12 .u8 (.unwrap (.tryFrom .u8 (.method (.var .inst) .slice (.cons (.lit 12) (.cons (.lit
    12) .nil)))))
    (.done (.match_ (.var .opmap)
    (.cons (.lit 0) (.match_ (.var .mi_flag)
    (.cons (.lit 0) (.variantOf .Result .Ok (.variant .COpcode .NOP))
    (.cons .wild (.variantOf .Result .Ok (.variant .COpcode .ADDI))
    .nil)))
    (.cons (.lit 1) (.match_ (.var .isa)
    (.cons (.ctor .Isa .Rv32) (.variantOf .Result .Ok (.variant .COpcode .JAL))
    (.cons (.ctor .Isa .Rv64) (.variantOf .Result .Ok (.variant .COpcode .ADDIW))
    .nil)))
    (.cons (.lit 2) (.variantOf .Result .Ok (.variant .COpcode .LI))
    (.cons (.lit 3) (.match_ (.var .mi_flag)
    (.cons (.lit 2) (.variantOf .Result .Ok (.variant .COpcode .ADDI16SP))
    (.cons .wild (.variantOf .Result .Ok (.variant .COpcode .LUI))
    .nil)))
    (.cons (.lit 4) (.match_ (.var .sr_flag)
    (.cons (.lit 0) (.variantOf .Result .Ok (.variant .COpcode .SRLI))
    (.cons (.lit 1) (.variantOf .Result .Ok (.variant .COpcode .SRAI))
    (.cons (.lit 2) (.variantOf .Result .Ok (.variant .COpcode .ANDI))
    (.cons (.lit 3) (.match_ (.var .bit_12)
    (.cons (.lit 0) (.match_ (.var .lo_flag)
    (.cons (.lit 0) (.variantOf .Result .Ok (.variant .COpcode .SUB))
    (.cons (.lit 1) (.variantOf .Result .Ok (.variant .COpcode .XOR))
    (.cons (.lit 2) (.variantOf .Result .Ok (.variant .COpcode .OR))
    (.cons (.lit 3) (.variantOf .Result .Ok (.variant .COpcode .AND))
    (.cons .wild (.variantOf .Result .Err (.variant .DecodingError .InvalidOpcode))
    .nil))))))
    (.cons (.lit 1) (.match_ (.var .lo_flag)
    (.cons (.lit 0) (.call .decode .only_rv64 (.cons (.variant .COpcode .SUBW) (.cons (.var .isa) .nil)))
    (.cons (.lit 1) (.call .decode .only_rv64 (.cons (.variant .COpcode .ADDW) (.cons (.var .isa) .nil)))
    (.cons .wild (.variantOf .Result .Err (.variant .DecodingError .InvalidOpcode))
    .nil))))
    (.cons .wild .unreachable
    .nil))))
    (.cons .wild (.variantOf .Result .Err (.variant .DecodingError .InvalidOpcode))
    .nil))))))
    (.cons (.lit 5) (.variantOf .Result .Ok (.variant .COpcode .J))
    (.cons (.lit 6) (.variantOf .Result .Ok (.variant .COpcode .BEQZ))
    (.cons (.lit 7) (.variantOf .Result .Ok (.variant .COpcode .BNEZ))
    (.cons .wild (.variantOf .Result .Err (.variant .DecodingError .InvalidOpcode))
    .nil))))))))))))))))⟩

/-- `c_extension::bit_16::quadrant2`, src/decode/c_extension.rs:65-92. -/
def c_extension_bit_16_quadrant2 : Fn := ⟨.c_extension_bit_16, .quadrant2, [(.inst, .u16), (.opmap, .u8), (.isa, .other)], (.result .other),
  (.block (.let_ .lo_flag .u8 (.unwrap (.tryFrom .u8 (.method (.var .inst) .slice (.cons (.lit 6) (.cons
  (.lit 2) .nil)))))
    (.let_ .mi_flag .u8 (.unwrap (.tryFrom .u8 (.method (.var .inst) .slice (.cons (.lit 11) (.cons (.lit
    7) .nil)))))
    (.let_ .hi_flag .u8 (.unwrap (.tryFrom .u8 (.method (.var .inst) .slice (.cons (.lit 12) (.cons (.lit
    12) .nil)))))
    (.done (.match_ (.var .opmap)
    (.cons (.lit 0) (.variantOf .Result .Ok (.variant .COpcode .SLLI))
    (.cons (.lit 2) (.variantOf .Result .Ok (.variant .COpcode .LWSP))
    (.cons (.lit 3) (.call .decode .only_rv64 (.cons (.variant .COpcode .LDSP) (.cons (.var .isa) .nil)))
    (.cons (.lit 4) (.match_ (.var .hi_flag)
    (.cons (.lit 0) (.match_ (.var .lo_flag)
    (.cons (.lit 0) (.variantOf .Result .Ok (.variant .COpcode .JR))
    (.cons .wild (.variantOf .Result .Ok (.variant .COpcode .MV))
    .nil)))
    (.cons (.lit 1) (.match_ (.var .mi_flag)
    (.cons (.lit 0) (.variantOf .Result .Ok (.variant .COpcode .EBREAK))
    (.cons .wild (.match_ (.var .lo_flag)
    (.cons (.lit 0) (.variantOf .Result .Ok (.variant .COpcode .JALR))
    (.cons .wild (.variantOf .Result .Ok (.variant .COpcode .ADD))
    .nil)))
    .nil)))
    (.cons .wild (.variantOf .Result .Err (.variant .DecodingError .InvalidOpcode))
    .nil))))
    (.cons (.lit 6) (.variantOf .Result .Ok (.variant .COpcode .SWSP))
    (.cons (.lit 7) (.call .decode .only_rv64 (.cons (.variant .COpcode .SDSP) (.cons (.var .isa) .nil)))
    (.cons .wild (.variantOf .Result .Err (.variant .DecodingError .InvalidOpcode))
    .nil)))))))))))))⟩

/-- `c_extension::bit_16::parse_opcode`, src/decode/c_extension.rs:94-108. -/
def c_extension_bit_16_parse_opcode : Fn := ⟨.c_extension_bit_16, .parse_opcode, [(.inst, .u16), (.isa, .other)], (.result .other),
  (.block (.let_ .opmap .u8 (.unwrap (.tryFrom .u8 (.method (.var .inst) .slice (.cons (.lit 15) (.cons
  (.lit 13) .nil)))))
    (.let_ .quadrant .u8 (.unwrap (.tryFrom .u8 (.method (.var .inst) .slice (.cons (.lit 1) (.cons (.lit
    0) .nil)))))
    (.expr (.ite (.bin .eq (.var .inst) (.lit 0)) (.block (.expr (.ret (.variantOf .Result .Err (.variant
    .DecodingError .InvalidOpcode)))
    (.done .unit))) .unit)
    (.done (.match_ (.var .quadrant)
    (.cons (.lit 0) (.call .c_extension_bit_16 .quadrant0 (.cons (.var .inst) (.cons (.var .opmap) (.cons
    (.var .isa) .nil))))
    (.cons (.lit 1) (.call .c_extension_bit_16 .quadrant1 (.cons (.var .inst) (.cons (.var .opmap) (.cons
    (.var .isa) .nil))))
    (.cons (.lit 2) (.call .c_extension_bit_16 .quadrant2 (.cons (.var .inst) (.cons (.var .opmap) (.cons
    (.var .isa) .nil))))
    (.cons .wild (.variantOf .Result .Err (.variant .DecodingError .InvalidOpcode))
    .nil))))))))))⟩

/-- `zicfiss_extension::bit_16::parse_opcode`, src/decode/zicfiss_extension.rs:87-93. -/
def zicfiss_extension_bit_16_parse_opcode : Fn := ⟨.zicfiss_extension_bit_16, .parse_opcode, [(.inst, .u16), (._isa, .other)], (.result .other),
  (.match_ (.var .inst)
    (.cons (.lit 24705) (.variantOf .Result .Ok (.variant .ZicfissOpcode .C_SSPUSH))
    (.cons (.lit 25217) (.variantOf .Result .Ok (.variant .ZicfissOpcode .C_SSPOPCHK))
    (.cons .wild (.variantOf .Result .Err (.variant .DecodingError .InvalidOpcode))
    .nil))))⟩

/-- `u16::parse_extension`, src/decode/inst_16.rs:82-87. -/
def u16_parse_extension : Fn := ⟨.u16, .parse_extension, [(.self, .u16)], (.result .other),
  (.match_ (.var .self)
    (.cons (.or (.lit 24705) (.lit 25217)) (.variantOf .Result .Ok (.variant .Extensions .Zicfiss))
    (.cons .wild (.variantOf .Result .Ok (.variant .Extensions .C))
    .nil)))⟩

/-- `u32::parse_extension`, src/decode/inst_32.rs:129-172. -/
def u32_parse_extension : Fn := ⟨.u32, .parse_extension, [(.self, .u32)], (.result .other),
  (.block (.let_ .opmap .u8 (.unwrap (.tryFrom .u8 (.method (.var .self) .slice (.cons (.lit 6) (.cons
  (.lit 0) .nil)))))
    (.let_ .funct3 .u8 (.unwrap (.tryFrom .u8 (.method (.var .self) .slice (.cons (.lit 14) (.cons (.lit
    12) .nil)))))
    (.let_ .funct5 .u8 (.unwrap (.tryFrom .u8 (.method (.var .self) .slice (.cons (.lit 31) (.cons (.lit
    27) .nil)))))
    (.let_ .funct7 .u8 (.unwrap (.tryFrom .u8 (.method (.var .self) .slice (.cons (.lit 31) (.cons (.lit
    25) .nil)))))
    (.let_ .csr .u16 (.unwrap (.tryFrom .u16 (.method (.var .self) .slice (.cons (.lit 31) (.cons (.lit 20)
    .nil)))))
    (.done (.match_ (.var .opmap)
    (.cons (.lit 15) (.match_ (.var .funct3)
    (.cons (.lit 0) (.variantOf .Result .Ok (.variant .Extensions .Zifencei))
    (.cons (.lit 2) (.variantOf .Result .Ok (.variant .Extensions .Zicboz))
    (.cons .wild (.variantOf .Result .Err (.variant .DecodingError .UnknownExtension))
    .nil))))
    (.cons (.lit 47) (.match_ (.var .funct5)
    (.cons (.or (.lit 0) (.or (.lit 1) (.or (.lit 2) (.or (.lit 3) (.or (.lit 4) (.or (.lit 8) (.or (.lit
    12) (.or (.lit 16) (.or (.lit 20) (.or (.lit 24) (.lit 28))))))))))) (.variantOf .Result .Ok (.variant
    .Extensions .A))
    (.cons (.lit 9) (.variantOf .Result .Ok (.variant .Extensions .Zicfiss))
    (.cons .wild (.variantOf .Result .Err (.variant .DecodingError .UnknownExtension))
    .nil))))
    (.cons (.lit 51) (.match_ (.var .funct7)
    (.cons (.lit 1) (.variantOf .Result .Ok (.variant .Extensions .M))
    (.cons .wild (.variantOf .Result .Ok (.variant .Extensions .BaseI))
    .nil)))
    (.cons (.lit 59) (.match_ (.var .funct7)
    (.cons (.or (.lit 0) (.lit 32)) (.variantOf .Result .Ok (.variant .Extensions .BaseI))
    (.cons (.lit 1) (.variantOf .Result .Ok (.variant .Extensions .M))
    (.cons .wild (.variantOf .Result .Err (.variant .DecodingError .UnknownExtension))
    .nil))))
    (.cons (.lit 115) (.match_ (.var .funct3)
    (.cons (.lit 0) (.match_ (.var .funct7)
    (.cons (.lit 0) (.variantOf .Result .Ok (.variant .Extensions .BaseI))
    (.cons .wild (.variantOf .Result .Ok (.variant .Extensions .Priv))
    .nil)))
    (.cons (.lit 2) (.match_ (.var .csr)
    (.cons (.or (.range 3072 3074) (.range 3200 3202)) (.variantOf .Result .Ok (.variant .Extensions
    .Zicntr))
    (.cons .wild (.variantOf .Result .Ok (.variant .Extensions .Zicsr))
    .nil)))
    (.cons (.lit 4) (.variantOf .Result .Ok (.variant .Extensions .Zicfiss))
    (.cons .wild (.variantOf .Result .Ok (.variant .Extensions .Zicsr))
    .nil)))))
    (.cons .wild (.variantOf .Result .Ok (.variant .Extensions .BaseI))
    .nil))))))))))))))⟩

/-- `u16::parse_opcode`, src/decode/inst_16.rs:31-41. -/
def u16_parse_opcode : Fn := ⟨.u16, .parse_opcode, [(.self, .u16), (.isa, .other)], (.result .other),
  (.block (.let_ .extension .other (.method (.var .self) .parse_extension .nil)
    (.done (.match_ (.var .extension)
    (.cons (.ctor1 .Result .Ok (.ctor .Extensions .C)) (.variantOf .Result .Ok (.variantOf .OpcodeKind .C
    (.question (.call .c_extension_bit_16 .parse_opcode (.cons (.var .self) (.cons (.var .isa) .nil))))))
    (.cons (.ctor1 .Result .Ok (.ctor .Extensions .Zicfiss)) (.variantOf .Result .Ok (.variantOf
    .OpcodeKind .Zicfiss (.question (.call .zicfiss_extension_bit_16 .parse_opcode (.cons (.var .self)
    (.cons (.var .isa) .nil))))))
    (.cons .wild (.variantOf .Result .Err (.variant .DecodingError .Not16BitInst))
    .nil)))))))⟩

/-- `a_extension::bit_32::parse_opcode`, src/decode/a_extension.rs:6-45. -/
def a_extension_bit_32_parse_opcode : Fn := ⟨.a_extension_bit_32, .parse_opcode, [(.inst, .u32), (.isa, .other)], (.result .other),
  (.block (.let_ .opmap .u8 (.unwrap (.tryFrom .u8 (.method (.var .inst) .slice (.cons (.lit 6) (.cons
  (.lit 0) .nil)))))
    (.let_ .funct3 .u8 (.unwrap (.tryFrom .u8 (.method (.var .inst) .slice (.cons (.lit 14) (.cons (.lit
    12) .nil)))))
    (.let_ .funct7 .u8 (.unwrap (.tryFrom .u8 (.method (.var .inst) .slice (.cons (.lit 31) (.cons (.lit
    27) .nil)))))
    (.done (.match_ (.var .opmap)
    (.cons (.lit 47) (.match_ (.var .funct3)
    (.cons (.lit 2) (.match_ (.var .funct7)
    (.cons (.lit 2) (.variantOf .Result .Ok (.variant .AOpcode .LR_W))
    (.cons (.lit 3) (.variantOf .Result .Ok (.variant .AOpcode .SC_W))
    (.cons (.lit 1) (.variantOf .Result .Ok (.variant .AOpcode .AMOSWAP_W))
    (.cons (.lit 0) (.variantOf .Result .Ok (.variant .AOpcode .AMOADD_W))
    (.cons (.lit 4) (.variantOf .Result .Ok (.variant .AOpcode .AMOXOR_W))
    (.cons (.lit 12) (.variantOf .Result .Ok (.variant .AOpcode .AMOAND_W))
    (.cons (.lit 8) (.variantOf .Result .Ok (.variant .AOpcode .AMOOR_W))
    (.cons (.lit 16) (.variantOf .Result .Ok (.variant .AOpcode .AMOMIN_W))
    (.cons (.lit 20) (.variantOf .Result .Ok (.variant .AOpcode .AMOMAX_W))
    (.cons (.lit 24) (.variantOf .Result .Ok (.variant .AOpcode .AMOMINU_W))
    (.cons (.lit 28) (.variantOf .Result .Ok (.variant .AOpcode .AMOMAXU_W))
    (.cons .wild (.variantOf .Result .Err (.variant .DecodingError .InvalidFunct7))
    .nil)))))))))))))
    (.cons (.lit 3) (.match_ (.var .funct7)
    (.cons (.lit 2) (.call .decode .only_rv64 (.cons (.variant .AOpcode .LR_D) (.cons (.var .isa) .nil)))
    (.cons (.lit 3) (.call .decode .only_rv64 (.cons (.variant .AOpcode .SC_D) (.cons (.var .isa) .nil)))
    (.cons (.lit 1) (.call .decode .only_rv64 (.cons (.variant .AOpcode .AMOSWAP_D) (.cons (.var .isa)
    .nil)))
    (.cons (.lit 0) (.call .decode .only_rv64 (.cons (.variant .AOpcode .AMOADD_D) (.cons (.var .isa)
    .nil)))
    (.cons (.lit 4) (.call .decode .only_rv64 (.cons (.variant .AOpcode .AMOXOR_D) (.cons (.var .isa)
    .nil)))
    (.cons (.lit 12) (.call .decode .only_rv64 (.cons (.variant .AOpcode .AMOAND_D) (.cons (.var .isa)
    .nil)))
    (.cons (.lit 8) (.call .decode .only_rv64 (.cons (.variant .AOpcode .AMOOR_D) (.cons (.var .isa) .nil)))
    (.cons (.lit 16) (.call .decode .only_rv64 (.cons (.variant .AOpcode .AMOMIN_D) (.cons (.var .isa)
    .nil)))
    (.cons (.lit 20) (.call .decode .only_rv64 (.cons (.variant .AOpcode .AMOMAX_D) (.cons (.var .isa)
    .nil)))
    (.cons (.lit 24) (.call .decode .only_rv64 (.cons (.variant .AOpcode .AMOMINU_D) (.cons (.var .isa)
    .nil)))
    (.cons (.lit 28) (.call .decode .only_rv64 (.cons (.variant .AOpcode .AMOMAXU_D) (.cons (.var .isa)
    .nil)))
    (.cons .wild (.variantOf .Result .Err (.variant .DecodingError .InvalidFunct7))
    .nil)))))))))))))
    (.cons .wild (.variantOf .Result .Err (.variant .DecodingError .InvalidFunct3))
    .nil))))
    (.cons .wild (.variantOf .Result .Err (.variant .DecodingError .InvalidOpcode))
    .nil))))))))⟩

/-- `base_i::bit_32::parse_opcode`, src/decode/base_i.rs:7-132. -/
def base_i_bit_32_parse_opcode : Fn := ⟨.base_i_bit_32, .parse_opcode, [(.inst, .u32), (.isa, .other)], (.result .other),
  (.block (.let_ .opmap .u8 (.unwrap (.tryFrom .u8 (.method (.var .inst) .slice (.cons (.lit 6) (.cons
  (.lit 0) .nil)))))
    (.let_ .funct3 .u8 (.unwrap (.tryFrom .u8 (.method (.var .inst) .slice (.cons (.lit 14) (.cons (.lit
    12) .nil)))))
    (.let_ .funct5 .u8 (.unwrap (.tryFrom .u8 (.method (.var .inst) .slice (.cons (.lit 24) (.cons (.lit
    20) .nil)))))
    (.let_ .funct6 .u8 (.unwrap (.tryFrom .u8 (.method (.var .inst) .slice (.cons (.lit 31) (.cons (.lit
    26) .nil)))))
    (.let_ .funct7 .u8 (.unwrap (.tryFrom .u8 (.method (.var .inst) .slice (.cons (.lit 31) (.cons (.lit
    25) .nil)))))
    (.done (.match_ (.var .opmap)
    (.cons (.lit 55) (.variantOf .Result .Ok (.variant .BaseIOpcode .LUI))
    (.cons (.lit 23) (.variantOf .Result .Ok (.variant .BaseIOpcode .AUIPC))
    (.cons (.lit 111) (.variantOf .Result .Ok (.variant .BaseIOpcode .JAL))
    (.cons (.lit 103) (.variantOf .Result .Ok (.variant .BaseIOpcode .JALR))
    (.cons (.lit 99) (.match_ (.var .funct3)
    (.cons (.lit 0) (.variantOf .Result .Ok (.variant .BaseIOpcode .BEQ))
    (.cons (.lit 1) (.variantOf .Result .Ok (.variant .BaseIOpcode .BNE))
    (.cons (.lit 4) (.variantOf .Result .Ok (.variant .BaseIOpcode .BLT))
    (.cons (.lit 5) (.variantOf .Result .Ok (.variant .BaseIOpcode .BGE))
    (.cons (.lit 6) (.variantOf .Result .Ok (.variant .BaseIOpcode .BLTU))
    (.cons (.lit 7) (.variantOf .Result .Ok (.variant .BaseIOpcode .BGEU))
    (.cons .wild (.variantOf .Result .Err (.variant .DecodingError .InvalidFunct3))
    .nil))))))))
    (.cons (.lit 3) (.match_ (.var .funct3)
    (.cons (.lit 0) (.variantOf .Result .Ok (.variant .BaseIOpcode .LB))
    (.cons (.lit 1) (.variantOf .Result .Ok (.variant .BaseIOpcode .LH))
    (.cons (.lit 2) (.variantOf .Result .Ok (.variant .BaseIOpcode .LW))
    (.cons (.lit 3) (.call .decode .only_rv64 (.cons (.variant .BaseIOpcode .LD) (.cons (.var .isa) .nil)))
    (.cons (.lit 4) (.variantOf .Result .Ok (.variant .BaseIOpcode .LBU))
    (.cons (.lit 5) (.variantOf .Result .Ok (.variant .BaseIOpcode .LHU))
    (.cons (.lit 6) (.call .decode .only_rv64 (.cons (.variant .BaseIOpcode .LWU) (.cons (.var .isa) .nil)))
    (.cons .wild (.variantOf .Result .Err (.variant .DecodingError .InvalidFunct3))
    .nil)))))))))
    (.cons (.lit 35) (.match_ (.var .funct3)
    (.cons (.lit 0) (.variantOf .Result .Ok (.variant .BaseIOpcode .SB))
    (.cons (.lit 1) (.variantOf .Result .Ok (.variant .BaseIOpcode .SH))
    (.cons (.lit 2) (.variantOf .Result .Ok (.variant .BaseIOpcode .SW))
    (.cons (.lit 3) (.call .decode .only_rv64 (.cons (.variant .BaseIOpcode .SD) (.cons (.var .isa) .nil)))
    (.cons .wild (.variantOf .Result .Err (.variant .DecodingError .InvalidFunct3))
    .nil))))))
    (.cons (.lit 19) (.match_ (.var .funct3)
    (.cons (.lit 0) (.variantOf .Result .Ok (.variant .BaseIOpcode .ADDI))
    (.cons (.lit 1) (.match_ (.var .isa)
    (.cons (.ctor .Isa .Rv32) (.match_ (.var .funct7)
    (.cons (.lit 0) (.variantOf .Result .Ok (.variant .BaseIOpcode .SLLI))
    (.cons .wild (.variantOf .Result .Err (.variant .DecodingError .InvalidFunct7))
    .nil)))
    (.cons (.ctor .Isa .Rv64) (.match_ (.var .funct6)
    (.cons (.lit 0) (.variantOf .Result .Ok (.variant .BaseIOpcode .SLLI))
    (.cons .wild (.variantOf .Result .Err (.variant .DecodingError .InvalidFunct6))
    .nil)))
    .nil)))
    (.cons (.lit 2) (.variantOf .Result .Ok (.variant .BaseIOpcode .SLTI))
    (.cons (.lit 3) (.variantOf .Result .Ok (.variant .BaseIOpcode .SLTIU))
    (.cons (.lit 4) (.variantOf .Result .Ok (.variant .BaseIOpcode .XORI))
    (.cons (.lit 5) (.match_ (.var .isa)
    (.cons (.ctor .Isa .Rv32) (.match_ (.var .funct7)
    (.cons (.lit 0) (.variantOf .Result .Ok (.variant .BaseIOpcode .SRLI))
    (.cons (.lit 32) (.variantOf .Result .Ok (.variant .BaseIOpcode .SRAI))
    (.cons .wild (.variantOf .Result .Err (.variant .DecodingError .InvalidFunct7))
    .nil))))
    (.cons (.ctor .Isa .Rv64) (.match_ (.var .funct6)
    (.cons (.lit 0) (.variantOf .Result .Ok (.variant .BaseIOpcode .SRLI))
    (.cons (.lit 16) (.variantOf .Result .Ok (.variant .BaseIOpcode .SRAI))
    (.cons .wild (.variantOf .Result .Err (.variant .DecodingError .InvalidFunct6))
    .nil))))
    .nil)))
    (.cons (.lit 6) (.variantOf .Result .Ok (.variant .BaseIOpcode .ORI))
    (.cons (.lit 7) (.variantOf .Result .Ok (.variant .BaseIOpcode .ANDI))
    (.cons .wild (.variantOf .Result .Err (.variant .DecodingError .InvalidFunct3))
    .nil))))))))))
    (.cons (.lit 51) (.match_ (.var .funct3)
    (.cons (.lit 0) (.match_ (.var .funct7)
    (.cons (.lit 0) (.variantOf .Result .Ok (.variant .BaseIOpcode .ADD))
    (.cons (.lit 32) (.variantOf .Result .Ok (.variant .BaseIOpcode .SUB))
    (.cons .wild (.variantOf .Result .Err (.variant .DecodingError .InvalidFunct7))
    .nil))))
    (.cons (.lit 1) (.variantOf .Result .Ok (.variant .BaseIOpcode .SLL))
    (.cons (.lit 2) (.variantOf .Result .Ok (.variant .BaseIOpcode .SLT))
    (.cons (.lit 3) (.variantOf .Result .Ok (.variant .BaseIOpcode .SLTU))
    (.cons (.lit 4) (.variantOf .Result .Ok (.variant .BaseIOpcode .XOR))
    (.cons (.lit 5) (.match_ (.var .funct7)
    (.cons (.lit 0) (.variantOf .Result .Ok (.variant .BaseIOpcode .SRL))
    (.cons (.lit 32) (.variantOf .Result .Ok (.variant .BaseIOpcode .SRA))
    (.cons .wild (.variantOf .Result .Err (.variant .DecodingError .InvalidFunct7))
    .nil))))
    (.cons (.lit 6) (.variantOf .Result .Ok (.variant .BaseIOpcode .OR))
    (.cons (.lit 7) (.variantOf .Result .Ok (.variant .BaseIOpcode .AND))
    (.cons .wild (.variantOf .Result .Err (.variant .DecodingError .InvalidFunct3))
    .nil))))))))))
    (.cons (.lit 115) (.match_ (.var .funct3)
    (.cons (.lit 0) (.match_ (.var .funct7)
    (.cons (.lit 0) (.match_ (.var .funct5)
    (.cons (.lit 0) (.variantOf .Result .Ok (.variant .BaseIOpcode .ECALL))
    (.cons (.lit 1) (.variantOf .Result .Ok (.variant .BaseIOpcode .EBREAK))
    (.cons .wild (.variantOf .Result .Err (.variant .DecodingError .InvalidFunct5))
    .nil))))
    (.cons .wild (.variantOf .Result .Err (.variant .DecodingError .InvalidFunct7))
    .nil)))
    (.cons .wild (.variantOf .Result .Err (.variant .DecodingError .InvalidFunct3))
    .nil)))
    (.cons (.lit 27) (.match_ (.var .funct3)
    (.cons (.lit 0) (.call .decode .only_rv64 (.cons (.variant .BaseIOpcode .ADDIW) (.cons (.var .isa)
    .nil)))
    (.cons (.lit 1) (.call .decode .only_rv64 (.cons (.variant .BaseIOpcode .SLLIW) (.cons (.var .isa)
    .nil)))
    (.cons (.lit 5) (.match_ (.var .funct7)
    (.cons (.lit 0) (.call .decode .only_rv64 (.cons (.variant .BaseIOpcode .SRLIW) (.cons (.var .isa)
    .nil)))
    (.cons (.lit 32) (.call .decode .only_rv64 (.cons (.variant .BaseIOpcode .SRAIW) (.cons (.var .isa)
    .nil)))
    (.cons .wild (.variantOf .Result .Err (.variant .DecodingError .InvalidFunct7))
    .nil))))
    (.cons .wild (.variantOf .Result .Err (.variant .DecodingError .InvalidFunct3))
    .nil)))))
    (.cons (.lit 59) (.match_ (.var .funct3)
    (.cons (.lit 0) (.match_ (.var .funct7)
    (.cons (.lit 0) (.call .decode .only_rv64 (.cons (.variant .BaseIOpcode .ADDW) (.cons (.var .isa)
    .nil)))
    (.cons (.lit 32) (.call .decode .only_rv64 (.cons (.variant .BaseIOpcode .SUBW) (.cons (.var .isa)
    .nil)))
    (.cons .wild (.variantOf .Result .Err (.variant .DecodingError .InvalidFunct7))
    .nil))))
    (.cons (.lit 1) (.call .decode .only_rv64 (.cons (.variant .BaseIOpcode .SLLW) (.cons (.var .isa)
    .nil)))
    (.cons (.lit 5) (.match_ (.var .funct7)
    (.cons (.lit 0) (.call .decode .only_rv64 (.cons (.variant .BaseIOpcode .SRLW) (.cons (.var .isa)
    .nil)))
    (.cons (.lit 32) (.call .decode .only_rv64 (.cons (.variant .BaseIOpcode .SRAW) (.cons (.var .isa)
    .nil)))
    (.cons .wild (.variantOf .Result .Err (.variant .DecodingError .InvalidFunct7))
    .nil))))
    (.cons .wild (.variantOf .Result .Err (.variant .DecodingError .InvalidFunct3))
    .nil)))))
    (.cons .wild (.variantOf .Result .Err (.variant .DecodingError .InvalidOpcode))
    .nil)))))))))))))))))))))⟩

/-- `m_extension::bit_32::parse_opcode`, src/decode/m_extension.rs:6-32. -/
def m_extension_bit_32_parse_opcode : Fn := ⟨.m_extension_bit_32, .parse_opcode, [(.inst, .u32), (.isa, .other)], (.result .other),
  (.block (.let_ .opmap .u8 (.unwrap (.tryFrom .u8 (.method (.var .inst) .slice (.cons (.lit 6) (.cons
  (.lit 0) .nil)))))
    (.let_ .funct3 .u8 (.unwrap (.tryFrom .u8 (.method (.var .inst) .slice (.cons (.lit 14) (.cons (.lit
    12) .nil)))))
    (.done (.match_ (.var .opmap)
    (.cons (.lit 51) (.match_ (.var .funct3)
    (.cons (.lit 0) (.variantOf .Result .Ok (.variant .MOpcode .MUL))
    (.cons (.lit 1) (.variantOf .Result .Ok (.variant .MOpcode .MULH))
    (.cons (.lit 2) (.variantOf .Result .Ok (.variant .MOpcode .MULHSU))
    (.cons (.lit 3) (.variantOf .Result .Ok (.variant .MOpcode .MULHU))
    (.cons (.lit 4) (.variantOf .Result .Ok (.variant .MOpcode .DIV))
    (.cons (.lit 5) (.variantOf .Result .Ok (.variant .MOpcode .DIVU))
    (.cons (.lit 6) (.variantOf .Result .Ok (.variant .MOpcode .REM))
    (.cons (.lit 7) (.variantOf .Result .Ok (.variant .MOpcode .REMU))
    (.cons .wild (.variantOf .Result .Err (.variant .DecodingError .InvalidFunct3))
    .nil))))))))))
    (.cons (.lit 59) (.match_ (.var .funct3)
    (.cons (.lit 0) (.call .decode .only_rv64 (.cons (.variant .MOpcode .MULW) (.cons (.var .isa) .nil)))
    (.cons (.lit 4) (.call .decode .only_rv64 (.cons (.variant .MOpcode .DIVW) (.cons (.var .isa) .nil)))
    (.cons (.lit 5) (.call .decode .only_rv64 (.cons (.variant .MOpcode .DIVUW) (.cons (.var .isa) .nil)))
    (.cons (.lit 6) (.call .decode .only_rv64 (.cons (.variant .MOpcode .REMW) (.cons (.var .isa) .nil)))
    (.cons (.lit 7) (.call .decode .only_rv64 (.cons (.variant .MOpcode .REMUW) (.cons (.var .isa) .nil)))
    (.cons .wild (.variantOf .Result .Err (.variant .DecodingError .InvalidFunct3))
    .nil)))))))
    (.cons .wild (.variantOf .Result .Err (.variant .DecodingError .InvalidOpcode))
    .nil))))))))⟩

/-- `priv_extension::bit_32::parse_opcode`, src/decode/priv_extension.rs:5-19. -/
def priv_extension_bit_32_parse_opcode : Fn := ⟨.priv_extension_bit_32, .parse_opcode, [(.inst, .u32)], (.result .other),
  (.block (.let_ ._opmap .u8 (.unwrap (.tryFrom .u8 (.method (.var .inst) .slice (.cons (.lit 6) (.cons
  (.lit 0) .nil)))))
    (.let_ ._funct3 .u8 (.unwrap (.tryFrom .u8 (.method (.var .inst) .slice (.cons (.lit 14) (.cons (.lit
    12) .nil)))))
    (.let_ .funct7 .u8 (.unwrap (.tryFrom .u8 (.method (.var .inst) .slice (.cons (.lit 31) (.cons (.lit
    25) .nil)))))
    (.done (.match_ (.var .inst)
    (.cons (.lit 270532723) (.variantOf .Result .Ok (.variant .PrivOpcode .SRET))
    (.cons (.lit 807403635) (.variantOf .Result .Ok (.variant .PrivOpcode .MRET))
    (.cons (.lit 273678451) (.variantOf .Result .Ok (.variant .PrivOpcode .WFI))
    (.cons .wild (.match_ (.var .funct7)
    (.cons (.lit 9) (.variantOf .Result .Ok (.variant .PrivOpcode .SFENCE_VMA))
    (.cons .wild (.variantOf .Result .Err (.variant .DecodingError .InvalidFunct7))
    .nil)))
    .nil))))))))))⟩

/-- `zicboz_extension::bit_32::parse_opcode`, src/decode/zicboz_extension.rs:5-24. -/
def zicboz_extension_bit_32_parse_opcode : Fn := ⟨.zicboz_extension_bit_32, .parse_opcode, [(.inst, .u32)], (.result .other),
  (.block (.let_ .opmap .u8 (.unwrap (.tryFrom .u8 (.method (.var .inst) .slice (.cons (.lit 6) (.cons
  (.lit 0) .nil)))))
    (.let_ .funct3 .u8 (.unwrap (.tryFrom .u8 (.method (.var .inst) .slice (.cons (.lit 14) (.cons (.lit
    12) .nil)))))
    (.let_ .field_11_7 .u8 (.unwrap (.tryFrom .u8 (.method (.var .inst) .slice (.cons (.lit 11) (.cons
    (.lit 7) .nil)))))
    (.let_ .cbo_num .u16 (.unwrap (.tryFrom .u16 (.method (.var .inst) .slice (.cons (.lit 31) (.cons (.lit
    20) .nil)))))
    (.done (.match_ (.var .opmap)
    (.cons (.lit 15) (.match_ (.var .funct3)
    (.cons (.lit 2) (.match_ (.var .cbo_num)
    (.cons (.lit 4) (.match_ (.var .field_11_7)
    (.cons (.lit 0) (.variantOf .Result .Ok (.variant .ZicbozOpcode .CBO_ZERO))
    (.cons .wild (.variantOf .Result .Err (.variant .DecodingError .InvalidOpcode))
    .nil)))
    (.cons .wild (.variantOf .Result .Err (.variant .DecodingError .InvalidOpcode))
    .nil)))
    (.cons .wild (.variantOf .Result .Err (.variant .DecodingError .InvalidFunct3))
    .nil)))
    (.cons .wild (.variantOf .Result .Err (.variant .DecodingError .InvalidOpcode))
    .nil)))))))))⟩

/-- `zicfiss_extension::bit_32::parse_opcode`, src/decode/zicfiss_extension.rs:5-30. -/
def zicfiss_extension_bit_32_parse_opcode : Fn := ⟨.zicfiss_extension_bit_32, .parse_opcode, [(.inst, .u32)], (.result .other),
  (.block (.let_ .opmap .u8 (.unwrap (.tryFrom .u8 (.method (.var .inst) .slice (.cons (.lit 6) (.cons
  (.lit 0) .nil)))))
    (.let_ .funct3 .u8 (.unwrap (.tryFrom .u8 (.method (.var .inst) .slice (.cons (.lit 14) (.cons (.lit
    12) .nil)))))
    (.let_ .rs1 .u8 (.unwrap (.tryFrom .u8 (.method (.var .inst) .slice (.cons (.lit 19) (.cons (.lit 15)
    .nil)))))
    (.let_ .funct7_rs2 .u16 (.unwrap (.tryFrom .u16 (.method (.var .inst) .slice (.cons (.lit 31) (.cons
    (.lit 20) .nil)))))
    (.done (.match_ (.var .opmap)
    (.cons (.lit 115) (.match_ (.var .funct3)
    (.cons (.lit 4) (.match_ (.var .funct7_rs2)
    (.cons (.or (.lit 3297) (.lit 3301)) (.variantOf .Result .Ok (.variant .ZicfissOpcode .SSPUSH))
    (.cons (.lit 3292) (.match_ (.var .rs1)
    (.cons (.lit 0) (.variantOf .Result .Ok (.variant .ZicfissOpcode .SSRDP))
    (.cons .wild (.variantOf .Result .Ok (.variant .ZicfissOpcode .SSPOPCHK))
    .nil)))
    (.cons .wild (.variantOf .Result .Err (.variant .DecodingError .InvalidOpcode))
    .nil))))
    (.cons .wild (.variantOf .Result .Err (.variant .DecodingError .InvalidFunct3))
    .nil)))
    (.cons (.lit 47) (.match_ (.var .funct3)
    (.cons (.lit 2) (.variantOf .Result .Ok (.variant .ZicfissOpcode .SSAMOSWAP_W))
    (.cons (.lit 3) (.variantOf .Result .Ok (.variant .ZicfissOpcode .SSAMOSWAP_D))
    (.cons .wild (.variantOf .Result .Err (.variant .DecodingError .InvalidFunct3))
    .nil))))
    (.cons .wild (.variantOf .Result .Err (.variant .DecodingError .InvalidOpcode))
    .nil))))))))))⟩

/-- `zicntr_extension::bit_32::parse_opcode`, src/decode/zicntr_extension.rs:5-25. -/
def zicntr_extension_bit_32_parse_opcode : Fn := ⟨.zicntr_extension_bit_32, .parse_opcode, [(.inst, .u32)], (.result .other),
  (.block (.let_ .opmap .u8 (.unwrap (.tryFrom .u8 (.method (.var .inst) .slice (.cons (.lit 6) (.cons
  (.lit 0) .nil)))))
    (.let_ .funct3 .u8 (.unwrap (.tryFrom .u8 (.method (.var .inst) .slice (.cons (.lit 14) (.cons (.lit
    12) .nil)))))
    (.let_ .csr_num .u16 (.unwrap (.tryFrom .u16 (.method (.var .inst) .slice (.cons (.lit 31) (.cons (.lit
    20) .nil)))))
    (.done (.match_ (.var .opmap)
    (.cons (.lit 115) (.match_ (.var .funct3)
    (.cons (.lit 2) (.match_ (.var .csr_num)
    (.cons (.lit 3072) (.variantOf .Result .Ok (.variant .ZicntrOpcode .RDCYCLE))
    (.cons (.lit 3073) (.variantOf .Result .Ok (.variant .ZicntrOpcode .RDTIME))
    (.cons (.lit 3074) (.variantOf .Result .Ok (.variant .ZicntrOpcode .RDINSTRET))
    (.cons (.lit 3200) (.variantOf .Result .Ok (.variant .ZicntrOpcode .RDCYCLE_H))
    (.cons (.lit 3201) (.variantOf .Result .Ok (.variant .ZicntrOpcode .RDTIME_H))
    (.cons (.lit 3202) (.variantOf .Result .Ok (.variant .ZicntrOpcode .RDINSTRET_H))
    (.cons .wild (.variantOf .Result .Err (.variant .DecodingError .InvalidOpcode))
    .nil))))))))
    (.cons .wild (.variantOf .Result .Err (.variant .DecodingError .InvalidFunct3))
    .nil)))
    (.cons .wild (.variantOf .Result .Err (.variant .DecodingError .InvalidOpcode))
    .nil))))))))⟩

/-- `zicsr_extension::bit_32::parse_opcode`, src/decode/zicsr_extension.rs:5-21. -/
def zicsr_extension_bit_32_parse_opcode : Fn := ⟨.zicsr_extension_bit_32, .parse_opcode, [(.inst, .u32)], (.result .other),
  (.block (.let_ .opmap .u8 (.unwrap (.tryFrom .u8 (.method (.var .inst) .slice (.cons (.lit 6) (.cons
  (.lit 0) .nil)))))
    (.let_ .funct3 .u8 (.unwrap (.tryFrom .u8 (.method (.var .inst) .slice (.cons (.lit 14) (.cons (.lit
    12) .nil)))))
    (.done (.match_ (.var .opmap)
    (.cons (.lit 115) (.match_ (.var .funct3)
    (.cons (.lit 1) (.variantOf .Result .Ok (.variant .ZicsrOpcode .CSRRW))
    (.cons (.lit 2) (.variantOf .Result .Ok (.variant .ZicsrOpcode .CSRRS))
    (.cons (.lit 3) (.variantOf .Result .Ok (.variant .ZicsrOpcode .CSRRC))
    (.cons (.lit 5) (.variantOf .Result .Ok (.variant .ZicsrOpcode .CSRRWI))
    (.cons (.lit 6) (.variantOf .Result .Ok (.variant .ZicsrOpcode .CSRRSI))
    (.cons (.lit 7) (.variantOf .Result .Ok (.variant .ZicsrOpcode .CSRRCI))
    (.cons .wild (.variantOf .Result .Err (.variant .DecodingError .InvalidFunct3))
    .nil))))))))
    (.cons .wild (.variantOf .Result .Err (.variant .DecodingError .InvalidOpcode))
    .nil)))))))⟩

/-- `zifencei_extension::bit_32::parse_opcode`, src/decode/zifencei_extension.rs:5-12. -/
def zifencei_extension_bit_32_parse_opcode : Fn := ⟨.zifencei_extension_bit_32, .parse_opcode, [(.inst, .u32)], (.result .other),
  (.block (.let_ .opmap .u8 (.unwrap (.tryFrom .u8 (.method (.var .inst) .slice (.cons (.lit 6) (.cons
  (.lit 0) .nil)))))
    (.done (.match_ (.var .opmap)
    (.cons (.lit 15) (.variantOf .Result .Ok (.variant .ZifenceiOpcode .FENCE))
    (.cons .wild (.variantOf .Result .Err (.variant .DecodingError .InvalidOpcode))
    .nil))))))⟩

/-- `u32::parse_opcode`, src/decode/inst_32.rs:30-60. -/
def u32_parse_opcode : Fn := ⟨.u32, .parse_opcode, [(.self, .u32), (.isa, .other)], (.result .other),
  (.block (.let_ .extension .other (.method (.var .self) .parse_extension .nil)
    (.done (.match_ (.var .extension)
    (.cons (.ctor1 .Result .Ok (.ctor .Extensions .BaseI)) (.variantOf .Result .Ok (.variantOf .OpcodeKind
    .BaseI (.question (.call .base_i_bit_32 .parse_opcode (.cons (.var .self) (.cons (.var .isa) .nil))))))
    (.cons (.ctor1 .Result .Ok (.ctor .Extensions .M)) (.variantOf .Result .Ok (.variantOf .OpcodeKind .M
    (.question (.call .m_extension_bit_32 .parse_opcode (.cons (.var .self) (.cons (.var .isa) .nil))))))
    (.cons (.ctor1 .Result .Ok (.ctor .Extensions .A)) (.variantOf .Result .Ok (.variantOf .OpcodeKind .A
    (.question (.call .a_extension_bit_32 .parse_opcode (.cons (.var .self) (.cons (.var .isa) .nil))))))
    (.cons (.ctor1 .Result .Ok (.ctor .Extensions .Zifencei)) (.variantOf .Result .Ok (.variantOf
    .OpcodeKind .Zifencei (.question (.call .zifencei_extension_bit_32 .parse_opcode (.cons (.var .self)
    .nil)))))
    (.cons (.ctor1 .Result .Ok (.ctor .Extensions .Zicsr)) (.variantOf .Result .Ok (.variantOf .OpcodeKind
    .Zicsr (.question (.call .zicsr_extension_bit_32 .parse_opcode (.cons (.var .self) .nil)))))
    (.cons (.ctor1 .Result .Ok (.ctor .Extensions .Zicfiss)) (.variantOf .Result .Ok (.variantOf
    .OpcodeKind .Zicfiss (.question (.call .zicfiss_extension_bit_32 .parse_opcode (.cons (.var .self)
    .nil)))))
    (.cons (.ctor1 .Result .Ok (.ctor .Extensions .Zicntr)) (.variantOf .Result .Ok (.variantOf .OpcodeKind
    .Zicntr (.question (.call .zicntr_extension_bit_32 .parse_opcode (.cons (.var .self) .nil)))))
    (.cons (.ctor1 .Result .Ok (.ctor .Extensions .Zicboz)) (.variantOf .Result .Ok (.variantOf .OpcodeKind
    .Zicboz (.question (.call .zicboz_extension_bit_32 .parse_opcode (.cons (.var .self) .nil)))))
    (.cons (.ctor1 .Result .Ok (.ctor .Extensions .Priv)) (.variantOf .Result .Ok (.variantOf .OpcodeKind
    .Priv (.question (.call .priv_extension_bit_32 .parse_opcode (.cons (.var .self) .nil)))))
    (.cons (.ctor1 .Result .Ok (.ctor .Extensions .C)) (.variantOf .Result .Err (.variant .DecodingError
    .Not32BitInst))
    (.cons (.ctor1 .Result .Err (.var .decoding_err)) (.variantOf .Result .Err (.var .decoding_err))
    .nil)))))))))))))))⟩

/-- `c_extension::bit_16::parse_rd`, src/decode/c_extension.rs:110-139. -/
def c_extension_bit_16_parse_rd : Fn := ⟨.c_extension_bit_16, .parse_rd, [(.inst, .u16), (.opkind, .other)], (.option .usize),
  (.block (.let_ .q0_rd .usize (.cast (.bin .add (.method (.var .inst) .slice (.cons (.lit 4) (.cons (.lit
  2) .nil))) (.lit 8)) .usize)
    (.let_ .q1_rd .usize (.cast (.bin .add (.method (.var .inst) .slice (.cons (.lit 9) (.cons (.lit 7)
    .nil))) (.lit 8)) .usize)
    (.let_ .q1_wide_rd .usize (.cast (.method (.var .inst) .slice (.cons (.lit 11) (.cons (.lit 7) .nil)))
    .usize)
    (.let_ .q2_rd .usize (.cast (.method (.var .inst) .slice (.cons (.lit 11) (.cons (.lit 7) .nil)))
    .usize)
    (.done (.match_ (.var .opkind)
    (.cons (.or (.ctor .COpcode .ADDI4SPN) (.or (.ctor .COpcode .LW) (.ctor .COpcode .LD))) (.variantOf
    .Option .Some (.var .q0_rd))
    (.cons (.or (.ctor .COpcode .SRLI) (.or (.ctor .COpcode .SRAI) (.or (.ctor .COpcode .ANDI) (.or (.ctor
    .COpcode .SUB) (.or (.ctor .COpcode .XOR) (.or (.ctor .COpcode .OR) (.or (.ctor .COpcode .AND) (.or
    (.ctor .COpcode .ADDW) (.ctor .COpcode .SUBW))))))))) (.variantOf .Option .Some (.var .q1_rd))
    (.cons (.or (.ctor .COpcode .LI) (.or (.ctor .COpcode .LUI) (.or (.ctor .COpcode .ADDI) (.or (.ctor
    .COpcode .ADDIW) (.ctor .COpcode .ADDI16SP))))) (.variantOf .Option .Some (.var .q1_wide_rd))
    (.cons (.or (.ctor .COpcode .SLLI) (.or (.ctor .COpcode .LWSP) (.or (.ctor .COpcode .LDSP) (.or (.ctor
    .COpcode .MV) (.ctor .COpcode .ADD))))) (.variantOf .Option .Some (.var .q2_rd))
    (.cons .wild (.variant .Option .None)
    .nil))))))))))))⟩

/-- `zicfiss_extension::bit_16::parse_rd`, src/decode/zicfiss_extension.rs:96-102. -/
def zicfiss_extension_bit_16_parse_rd : Fn := ⟨.zicfiss_extension_bit_16, .parse_rd, [(._inst, .u16), (.opkind, .other)], (.option .usize),
  (.match_ (.var .opkind)
    (.cons (.ctor .ZicfissOpcode .C_SSPUSH) (.variantOf .Option .Some (.lit 1))
    (.cons (.ctor .ZicfissOpcode .C_SSPOPCHK) (.variantOf .Option .Some (.lit 5))
    (.cons .wild .unreachable
    .nil))))⟩

/-- `u16::parse_rd`, src/decode/inst_16.rs:43-49. -/
def u16_parse_rd : Fn := ⟨.u16, .parse_rd, [(.self, .u16), (.opkind, .other)], (.result (.option .usize)),
  (.match_ (.var .opkind)
    (.cons (.ctor1 .OpcodeKind .C (.var .opc)) (.variantOf .Result .Ok (.call .c_extension_bit_16 .parse_rd
    (.cons (.var .self) (.cons (.var .opc) .nil))))
    (.cons (.ctor1 .OpcodeKind .Zicfiss (.var .opc)) (.variantOf .Result .Ok (.call
    .zicfiss_extension_bit_16 .parse_rd (.cons (.var .self) (.cons (.var .opc) .nil))))
    (.cons .wild (.variantOf .Result .Err (.variant .DecodingError .Not16BitInst))
    .nil))))⟩

/-- `a_extension::bit_32::parse_rd`, src/decode/a_extension.rs:48-75. -/
def a_extension_bit_32_parse_rd : Fn := ⟨.a_extension_bit_32, .parse_rd, [(.inst, .u32), (.opkind, .other)], (.option .usize),
  (.block (.let_ .rd .usize (.cast (.method (.var .inst) .slice (.cons (.lit 11) (.cons (.lit 7) .nil)))
  .usize)
    (.done (.match_ (.var .opkind)
    (.cons (.or (.ctor .AOpcode .LR_W) (.or (.ctor .AOpcode .SC_W) (.or (.ctor .AOpcode .AMOSWAP_W) (.or
    (.ctor .AOpcode .AMOADD_W) (.or (.ctor .AOpcode .AMOXOR_W) (.or (.ctor .AOpcode .AMOAND_W) (.or (.ctor
    .AOpcode .AMOOR_W) (.or (.ctor .AOpcode .AMOMIN_W) (.or (.ctor .AOpcode .AMOMAX_W) (.or (.ctor .AOpcode
    .AMOMINU_W) (.or (.ctor .AOpcode .AMOMAXU_W) (.or (.ctor .AOpcode .LR_D) (.or (.ctor .AOpcode .SC_D)
    (.or (.ctor .AOpcode .AMOSWAP_D) (.or (.ctor .AOpcode .AMOADD_D) (.or (.ctor .AOpcode .AMOXOR_D) (.or
    (.ctor .AOpcode .AMOAND_D) (.or (.ctor .AOpcode .AMOOR_D) (.or (.ctor .AOpcode .AMOMIN_D) (.or (.ctor
    .AOpcode .AMOMAX_D) (.or (.ctor .AOpcode .AMOMINU_D) (.ctor .AOpcode .AMOMAXU_D))))))))))))))))))))))
    (.variantOf .Option .Some (.var .rd))
    .nil)))))⟩

/-- `base_i::bit_32::parse_rd`, src/decode/base_i.rs:134-180. -/
def base_i_bit_32_parse_rd : Fn := ⟨.base_i_bit_32, .parse_rd, [(.inst, .u32), (.opkind, .other)], (.option .usize),
  (.block (.let_ .rd .usize (.cast (.method (.var .inst) .slice (.cons (.lit 11) (.cons (.lit 7) .nil)))
  .usize)
    (.done (.match_ (.var .opkind)
    (.cons (.or (.ctor .BaseIOpcode .LUI) (.or (.ctor .BaseIOpcode .AUIPC) (.or (.ctor .BaseIOpcode .JAL)
    (.or (.ctor .BaseIOpcode .JALR) (.or (.ctor .BaseIOpcode .LB) (.or (.ctor .BaseIOpcode .LH) (.or (.ctor
    .BaseIOpcode .LW) (.or (.ctor .BaseIOpcode .LBU) (.or (.ctor .BaseIOpcode .LHU) (.or (.ctor
    .BaseIOpcode .ADDI) (.or (.ctor .BaseIOpcode .SLTI) (.or (.ctor .BaseIOpcode .SLTIU) (.or (.ctor
    .BaseIOpcode .XORI) (.or (.ctor .BaseIOpcode .ORI) (.or (.ctor .BaseIOpcode .ANDI) (.or (.ctor
    .BaseIOpcode .SLLI) (.or (.ctor .BaseIOpcode .SRLI) (.or (.ctor .BaseIOpcode .SRAI) (.or (.ctor
    .BaseIOpcode .ADD) (.or (.ctor .BaseIOpcode .SUB) (.or (.ctor .BaseIOpcode .SLL) (.or (.ctor
    .BaseIOpcode .SLT) (.or (.ctor .BaseIOpcode .SLTU) (.or (.ctor .BaseIOpcode .XOR) (.or (.ctor
    .BaseIOpcode .SRL) (.or (.ctor .BaseIOpcode .SRA) (.or (.ctor .BaseIOpcode .OR) (.or (.ctor
    .BaseIOpcode .AND) (.or (.ctor .BaseIOpcode .LWU) (.or (.ctor .BaseIOpcode .LD) (.or (.ctor
    .BaseIOpcode .ADDIW) (.or (.ctor .BaseIOpcode .SLLIW) (.or (.ctor .BaseIOpcode .SRLIW) (.or (.ctor
    .BaseIOpcode .SRAIW) (.or (.ctor .BaseIOpcode .ADDW) (.or (.ctor .BaseIOpcode .SUBW) (.or (.ctor
    .BaseIOpcode .SLLW) (.or (.ctor .BaseIOpcode .SRLW) (.ctor .BaseIOpcode
    .SRAW))))))))))))))))))))))))))))))))))))))) (.variantOf .Option .Some (.var .rd))
    (.cons .wild (.variant .Option .None)
    .nil))))))⟩

/-- `m_extension::bit_32::parse_rd`, src/decode/m_extension.rs:35-53. -/
def m_extension_bit_32_parse_rd : Fn := ⟨.m_extension_bit_32, .parse_rd, [(.inst, .u32), (.opkind, .other)], (.option .usize),
  (.block (.let_ .rd .usize (.cast (.method (.var .inst) .slice (.cons (.lit 11) (.cons (.lit 7) .nil)))
  .usize)
    (.done (.match_ (.var .opkind)
    (.cons (.or (.ctor .MOpcode .MUL) (.or (.ctor .MOpcode .MULH) (.or (.ctor .MOpcode .MULHSU) (.or (.ctor
    .MOpcode .MULHU) (.or (.ctor .MOpcode .DIV) (.or (.ctor .MOpcode .DIVU) (.or (.ctor .MOpcode .REM) (.or
    (.ctor .MOpcode .REMU) (.or (.ctor .MOpcode .MULW) (.or (.ctor .MOpcode .DIVW) (.or (.ctor .MOpcode
    .DIVUW) (.or (.ctor .MOpcode .REMW) (.ctor .MOpcode .REMUW))))))))))))) (.variantOf .Option .Some (.var
    .rd))
    .nil)))))⟩

/-- `priv_extension::bit_32::parse_rd`, src/decode/priv_extension.rs:22-24. -/
def priv_extension_bit_32_parse_rd : Fn := ⟨.priv_extension_bit_32, .parse_rd, [(._inst, .u32), (._opkind, .other)], (.option .usize),
  (.variant .Option .None)⟩

/-- `zicboz_extension::bit_32::parse_rd`, src/decode/zicboz_extension.rs:27-29. -/
def zicboz_extension_bit_32_parse_rd : Fn := ⟨.zicboz_extension_bit_32, .parse_rd, [(._inst, .u32), (._opkind, .other)], (.option .usize),
  (.variant .Option .None)⟩

/-- `zicfiss_extension::bit_32::parse_rd`, src/decode/zicfiss_extension.rs:33-42. -/
def zicfiss_extension_bit_32_parse_rd : Fn := ⟨.zicfiss_extension_bit_32, .parse_rd, [(.inst, .u32), (.opkind, .other)], (.option .usize),
  (.block (.let_ .rd .usize (.cast (.method (.var .inst) .slice (.cons (.lit 11) (.cons (.lit 7) .nil)))
  .usize)
    (.done (.match_ (.var .opkind)
    (.cons (.or (.ctor .ZicfissOpcode .SSPUSH) (.ctor .ZicfissOpcode .SSPOPCHK)) (.variantOf .Option .Some
    (.lit 0))
    (.cons (.or (.ctor .ZicfissOpcode .SSRDP) (.or (.ctor .ZicfissOpcode .SSAMOSWAP_W) (.ctor
    .ZicfissOpcode .SSAMOSWAP_D))) (.variantOf .Option .Some (.var .rd))
    (.cons (.or (.ctor .ZicfissOpcode .C_SSPUSH) (.ctor .ZicfissOpcode .C_SSPOPCHK)) .unreachable
    .nil)))))))⟩

/-- `zicntr_extension::bit_32::parse_rd`, src/decode/zicntr_extension.rs:28-38. -/
def zicntr_extension_bit_32_parse_rd : Fn := ⟨.zicntr_extension_bit_32, .parse_rd, [(.inst, .u32), (.opkind, .other)], (.option .usize),
  (.block (.let_ .rd .usize (.cast (.method (.var .inst) .slice (.cons (.lit 11) (.cons (.lit 7) .nil)))
  .usize)
    (.done (.match_ (.var .opkind)
    (.cons (.or (.ctor .ZicntrOpcode .RDCYCLE) (.or (.ctor .ZicntrOpcode .RDTIME) (.or (.ctor .ZicntrOpcode
    .RDINSTRET) (.or (.ctor .ZicntrOpcode .RDCYCLE_H) (.or (.ctor .ZicntrOpcode .RDTIME_H) (.ctor
    .ZicntrOpcode .RDINSTRET_H)))))) (.variantOf .Option .Some (.var .rd))
    .nil)))))⟩

/-- `zicsr_extension::bit_32::parse_rd`, src/decode/zicsr_extension.rs:24-35. -/
def zicsr_extension_bit_32_parse_rd : Fn := ⟨.zicsr_extension_bit_32, .parse_rd, [(.inst, .u32), (.opkind, .other)], (.option .usize),
  (.block (.let_ .rd .usize (.cast (.method (.var .inst) .slice (.cons (.lit 11) (.cons (.lit 7) .nil)))
  .usize)
    (.done (.match_ (.var .opkind)
    (.cons (.or (.ctor .ZicsrOpcode .CSRRW) (.or (.ctor .ZicsrOpcode .CSRRS) (.or (.ctor .ZicsrOpcode
    .CSRRC) (.or (.ctor .ZicsrOpcode .CSRRWI) (.or (.ctor .ZicsrOpcode .CSRRSI) (.ctor .ZicsrOpcode
    .CSRRCI)))))) (.variantOf .Option .Some (.var .rd))
    .nil)))))⟩

/-- `zifencei_extension::bit_32::parse_rd`, src/decode/zifencei_extension.rs:15-21. -/
def zifencei_extension_bit_32_parse_rd : Fn := ⟨.zifencei_extension_bit_32, .parse_rd, [(.inst, .u32), (.opkind, .other)], (.option .usize),
  (.block (.let_ .rd .usize (.cast (.method (.var .inst) .slice (.cons (.lit 11) (.cons (.lit 7) .nil)))
  .usize)
    (.done (.match_ (.var .opkind)
    (.cons (.ctor .ZifenceiOpcode .FENCE) (.variantOf .Option .Some (.var .rd))
    .nil)))))⟩

/-- `u32::parse_rd`, src/decode/inst_32.rs:62-75. -/
def u32_parse_rd : Fn := ⟨.u32, .parse_rd, [(.self, .u32), (.opkind, .other)], (.result (.option .usize)),
  (.match_ (.var .opkind)
    (.cons (.ctor1 .OpcodeKind .BaseI (.var .opc)) (.variantOf .Result .Ok (.call .base_i_bit_32 .parse_rd
    (.cons (.var .self) (.cons (.var .opc) .nil))))
    (.cons (.ctor1 .OpcodeKind .M (.var .opc)) (.variantOf .Result .Ok (.call .m_extension_bit_32 .parse_rd
    (.cons (.var .self) (.cons (.var .opc) .nil))))
    (.cons (.ctor1 .OpcodeKind .A (.var .opc)) (.variantOf .Result .Ok (.call .a_extension_bit_32 .parse_rd
    (.cons (.var .self) (.cons (.var .opc) .nil))))
    (.cons (.ctor1 .OpcodeKind .Zifencei (.var .opc)) (.variantOf .Result .Ok (.call
    .zifencei_extension_bit_32 .parse_rd (.cons (.var .self) (.cons (.var .opc) .nil))))
    (.cons (.ctor1 .OpcodeKind .Zicsr (.var .opc)) (.variantOf .Result .Ok (.call .zicsr_extension_bit_32
    .parse_rd (.cons (.var .self) (.cons (.var .opc) .nil))))
    (.cons (.ctor1 .OpcodeKind .Zicfiss (.var .opc)) (.variantOf .Result .Ok (.call
    .zicfiss_extension_bit_32 .parse_rd (.cons (.var .self) (.cons (.var .opc) .nil))))
    (.cons (.ctor1 .OpcodeKind .Zicntr (.var .opc)) (.variantOf .Result .Ok (.call .zicntr_extension_bit_32
    .parse_rd (.cons (.var .self) (.cons (.var .opc) .nil))))
    (.cons (.ctor1 .OpcodeKind .Zicboz (.var .opc)) (.variantOf .Result .Ok (.call .zicboz_extension_bit_32
    .parse_rd (.cons (.var .self) (.cons (.var .opc) .nil))))
    (.cons (.ctor1 .OpcodeKind .Priv (.var .opc)) (.variantOf .Result .Ok (.call .priv_extension_bit_32
    .parse_rd (.cons (.var .self) (.cons (.var .opc) .nil))))
    (.cons (.ctor1 .OpcodeKind .C .wild) (.variantOf .Result .Err (.variant .DecodingError .Not32BitInst))
    .nil)))))))))))⟩

/-- `c_extension::bit_16::parse_rs1`, src/decode/c_extension.rs:141-168. -/
def c_extension_bit_16_parse_rs1 : Fn := ⟨.c_extension_bit_16, .parse_rs1, [(.inst, .u16), (.opkind, .other)], (.option .usize),
  (.block (.let_ .q0_rs1 .usize (.cast (.bin .add (.method (.var .inst) .slice (.cons (.lit 9) (.cons (.lit
  7) .nil))) (.lit 8)) .usize)
    (.let_ .q1_rs1 .usize (.cast (.bin .add (.method (.var .inst) .slice (.cons (.lit 9) (.cons (.lit 7)
    .nil))) (.lit 8)) .usize)
    (.let_ .q1_addi_rs1 .usize (.cast (.method (.var .inst) .slice (.cons (.lit 11) (.cons (.lit 7) .nil)))
    .usize)
    (.let_ .q2_rs1 .usize (.cast (.method (.var .inst) .slice (.cons (.lit 11) (.cons (.lit 7) .nil)))
    .usize)
    (.done (.match_ (.var .opkind)
    (.cons (.or (.ctor .COpcode .LW) (.or (.ctor .COpcode .LD) (.or (.ctor .COpcode .SW) (.ctor .COpcode
    .SD)))) (.variantOf .Option .Some (.var .q0_rs1))
    (.cons (.or (.ctor .COpcode .ADDI) (.or (.ctor .COpcode .ADDIW) (.ctor .COpcode .ADDI16SP)))
    (.variantOf .Option .Some (.var .q1_addi_rs1))
    (.cons (.or (.ctor .COpcode .SRLI) (.or (.ctor .COpcode .SRAI) (.or (.ctor .COpcode .ANDI) (.or (.ctor
    .COpcode .SUB) (.or (.ctor .COpcode .XOR) (.or (.ctor .COpcode .OR) (.or (.ctor .COpcode .AND) (.or
    (.ctor .COpcode .BEQZ) (.or (.ctor .COpcode .BNEZ) (.or (.ctor .COpcode .SUBW) (.ctor .COpcode
    .ADDW))))))))))) (.variantOf .Option .Some (.var .q1_rs1))
    (.cons (.or (.ctor .COpcode .SLLI) (.or (.ctor .COpcode .JR) (.or (.ctor .COpcode .JALR) (.ctor
    .COpcode .ADD)))) (.variantOf .Option .Some (.var .q2_rs1))
    (.cons .wild (.variant .Option .None)
    .nil))))))))))))⟩

/-- `zicfiss_extension::bit_16::parse_rs1`, src/decode/zicfiss_extension.rs:105-107. -/
def zicfiss_extension_bit_16_parse_rs1 : Fn := ⟨.zicfiss_extension_bit_16, .parse_rs1, [(._inst, .u16), (._opkind, .other)], (.option .usize),
  (.variant .Option .None)⟩

/-- `u16::parse_rs1`, src/decode/inst_16.rs:51-57. -/
def u16_parse_rs1 : Fn := ⟨.u16, .parse_rs1, [(.self, .u16), (.opkind, .other)], (.result (.option .usize)),
  (.match_ (.var .opkind)
    (.cons (.ctor1 .OpcodeKind .C (.var .opc)) (.variantOf .Result .Ok (.call .c_extension_bit_16
    .parse_rs1 (.cons (.var .self) (.cons (.var .opc) .nil))))
    (.cons (.ctor1 .OpcodeKind .Zicfiss (.var .opc)) (.variantOf .Result .Ok (.call
    .zicfiss_extension_bit_16 .parse_rs1 (.cons (.var .self) (.cons (.var .opc) .nil))))
    (.cons .wild (.variantOf .Result .Err (.variant .DecodingError .Not16BitInst))
    .nil))))⟩

/-- `a_extension::bit_32::parse_rs1`, src/decode/a_extension.rs:78-105. -/
def a_extension_bit_32_parse_rs1 : Fn := ⟨.a_extension_bit_32, .parse_rs1, [(.inst, .u32), (.opkind, .other)], (.option .usize),
  (.block (.let_ .rs1 .usize (.cast (.method (.var .inst) .slice (.cons (.lit 19) (.cons (.lit 15) .nil)))
  .usize)
    (.done (.match_ (.var .opkind)
    (.cons (.or (.ctor .AOpcode .LR_W) (.or (.ctor .AOpcode .SC_W) (.or (.ctor .AOpcode .AMOSWAP_W) (.or
    (.ctor .AOpcode .AMOADD_W) (.or (.ctor .AOpcode .AMOXOR_W) (.or (.ctor .AOpcode .AMOAND_W) (.or (.ctor
    .AOpcode .AMOOR_W) (.or (.ctor .AOpcode .AMOMIN_W) (.or (.ctor .AOpcode .AMOMAX_W) (.or (.ctor .AOpcode
    .AMOMINU_W) (.or (.ctor .AOpcode .AMOMAXU_W) (.or (.ctor .AOpcode .LR_D) (.or (.ctor .AOpcode .SC_D)
    (.or (.ctor .AOpcode .AMOSWAP_D) (.or (.ctor .AOpcode .AMOADD_D) (.or (.ctor .AOpcode .AMOXOR_D) (.or
    (.ctor .AOpcode .AMOAND_D) (.or (.ctor .AOpcode .AMOOR_D) (.or (.ctor .AOpcode .AMOMIN_D) (.or (.ctor
    .AOpcode .AMOMAX_D) (.or (.ctor .AOpcode .AMOMINU_D) (.ctor .AOpcode .AMOMAXU_D))))))))))))))))))))))
    (.variantOf .Option .Some (.var .rs1))
    .nil)))))⟩

/-- `base_i::bit_32::parse_rs1`, src/decode/base_i.rs:182-235. -/
def base_i_bit_32_parse_rs1 : Fn := ⟨.base_i_bit_32, .parse_rs1, [(.inst, .u32), (.opkind, .other)], (.option .usize),
  (.block (.let_ .rs1 .usize (.cast (.method (.var .inst) .slice (.cons (.lit 19) (.cons (.lit 15) .nil)))
  .usize)
    (.done (.match_ (.var .opkind)
    (.cons (.or (.ctor .BaseIOpcode .JALR) (.or (.ctor .BaseIOpcode .BEQ) (.or (.ctor .BaseIOpcode .BNE)
    (.or (.ctor .BaseIOpcode .BLT) (.or (.ctor .BaseIOpcode .BGE) (.or (.ctor .BaseIOpcode .BLTU) (.or
    (.ctor .BaseIOpcode .BGEU) (.or (.ctor .BaseIOpcode .LB) (.or (.ctor .BaseIOpcode .LH) (.or (.ctor
    .BaseIOpcode .LW) (.or (.ctor .BaseIOpcode .LBU) (.or (.ctor .BaseIOpcode .LHU) (.or (.ctor
    .BaseIOpcode .SB) (.or (.ctor .BaseIOpcode .SH) (.or (.ctor .BaseIOpcode .SW) (.or (.ctor .BaseIOpcode
    .ADDI) (.or (.ctor .BaseIOpcode .SLTI) (.or (.ctor .BaseIOpcode .SLTIU) (.or (.ctor .BaseIOpcode .XORI)
    (.or (.ctor .BaseIOpcode .ORI) (.or (.ctor .BaseIOpcode .ANDI) (.or (.ctor .BaseIOpcode .SLLI) (.or
    (.ctor .BaseIOpcode .SRLI) (.or (.ctor .BaseIOpcode .SRAI) (.or (.ctor .BaseIOpcode .ADD) (.or (.ctor
    .BaseIOpcode .SUB) (.or (.ctor .BaseIOpcode .SLL) (.or (.ctor .BaseIOpcode .SLT) (.or (.ctor
    .BaseIOpcode .SLTU) (.or (.ctor .BaseIOpcode .XOR) (.or (.ctor .BaseIOpcode .SRL) (.or (.ctor
    .BaseIOpcode .SRA) (.or (.ctor .BaseIOpcode .OR) (.or (.ctor .BaseIOpcode .AND) (.or (.ctor
    .BaseIOpcode .LWU) (.or (.ctor .BaseIOpcode .LD) (.or (.ctor .BaseIOpcode .SD) (.or (.ctor .BaseIOpcode
    .ADDIW) (.or (.ctor .BaseIOpcode .SLLIW) (.or (.ctor .BaseIOpcode .SRLIW) (.or (.ctor .BaseIOpcode
    .SRAIW) (.or (.ctor .BaseIOpcode .ADDW) (.or (.ctor .BaseIOpcode .SUBW) (.or (.ctor .BaseIOpcode .SLLW)
    (.or (.ctor .BaseIOpcode .SRLW) (.ctor .BaseIOpcode .SRAW))))))))))))))))))))))))))))))))))))))))))))))
    (.variantOf .Option .Some (.var .rs1))
    (.cons .wild (.variant .Option .None)
    .nil))))))⟩

/-- `m_extension::bit_32::parse_rs1`, src/decode/m_extension.rs:56-74. -/
def m_extension_bit_32_parse_rs1 : Fn := ⟨.m_extension_bit_32, .parse_rs1, [(.inst, .u32), (.opkind, .other)], (.option .usize),
  (.block (.let_ .rs1 .usize (.cast (.method (.var .inst) .slice (.cons (.lit 19) (.cons (.lit 15) .nil)))
  .usize)
    (.done (.match_ (.var .opkind)
    (.cons (.or (.ctor .MOpcode .MUL) (.or (.ctor .MOpcode .MULH) (.or (.ctor .MOpcode .MULHSU) (.or (.ctor
    .MOpcode .MULHU) (.or (.ctor .MOpcode .DIV) (.or (.ctor .MOpcode .DIVU) (.or (.ctor .MOpcode .REM) (.or
    (.ctor .MOpcode .REMU) (.or (.ctor .MOpcode .MULW) (.or (.ctor .MOpcode .DIVW) (.or (.ctor .MOpcode
    .DIVUW) (.or (.ctor .MOpcode .REMW) (.ctor .MOpcode .REMUW))))))))))))) (.variantOf .Option .Some (.var
    .rs1))
    .nil)))))⟩

/-- `priv_extension::bit_32::parse_rs1`, src/decode/priv_extension.rs:26-33. -/
def priv_extension_bit_32_parse_rs1 : Fn := ⟨.priv_extension_bit_32, .parse_rs1, [(.inst, .u32), (.opkind, .other)], (.option .usize),
  (.block (.let_ .rs1 .usize (.cast (.method (.var .inst) .slice (.cons (.lit 19) (.cons (.lit 15) .nil)))
  .usize)
    (.done (.match_ (.var .opkind)
    (.cons (.ctor .PrivOpcode .SFENCE_VMA) (.variantOf .Option .Some (.var .rs1))
    (.cons .wild (.variant .Option .None)
    .nil))))))⟩

/-- `zicboz_extension::bit_32::parse_rs1`, src/decode/zicboz_extension.rs:32-37. -/
def zicboz_extension_bit_32_parse_rs1 : Fn := ⟨.zicboz_extension_bit_32, .parse_rs1, [(.inst, .u32), (.opkind, .other)], (.option .usize),
  (.block (.let_ .rs1 .u8 (.unwrap (.tryFrom .u8 (.method (.var .inst) .slice (.cons (.lit 19) (.cons (.lit
  15) .nil)))))
    (.done (.match_ (.var .opkind)
    (.cons (.ctor .ZicbozOpcode .CBO_ZERO) (.variantOf .Option .Some (.into (.var .rs1)))
    .nil)))))⟩

/-- `zicfiss_extension::bit_32::parse_rs1`, src/decode/zicfiss_extension.rs:45-55. -/
def zicfiss_extension_bit_32_parse_rs1 : Fn := ⟨.zicfiss_extension_bit_32, .parse_rs1, [(.inst, .u32), (.opkind, .other)], (.option .usize),
  (.block (.let_ .rs1 .usize (.cast (.method (.var .inst) .slice (.cons (.lit 19) (.cons (.lit 15) .nil)))
  .usize)
    (.done (.match_ (.var .opkind)
    (.cons (.ctor .ZicfissOpcode .SSPUSH) (.variantOf .Option .Some (.lit 0))
    (.cons (.or (.ctor .ZicfissOpcode .SSPOPCHK) (.or (.ctor .ZicfissOpcode .SSAMOSWAP_W) (.ctor
    .ZicfissOpcode .SSAMOSWAP_D))) (.variantOf .Option .Some (.var .rs1))
    (.cons (.ctor .ZicfissOpcode .SSRDP) (.variant .Option .None)
    (.cons (.or (.ctor .ZicfissOpcode .C_SSPUSH) (.ctor .ZicfissOpcode .C_SSPOPCHK)) .unreachable
    .nil))))))))⟩

/-- `zicntr_extension::bit_32::parse_rs1`, src/decode/zicntr_extension.rs:41-50. -/
def zicntr_extension_bit_32_parse_rs1 : Fn := ⟨.zicntr_extension_bit_32, .parse_rs1, [(._inst, .u32), (.opkind, .other)], (.option .usize),
  (.match_ (.var .opkind)
    (.cons (.or (.ctor .ZicntrOpcode .RDCYCLE) (.or (.ctor .ZicntrOpcode .RDTIME) (.or (.ctor .ZicntrOpcode
    .RDINSTRET) (.or (.ctor .ZicntrOpcode .RDCYCLE_H) (.or (.ctor .ZicntrOpcode .RDTIME_H) (.ctor
    .ZicntrOpcode .RDINSTRET_H)))))) (.variant .Option .None)
    .nil))⟩

/-- `zicsr_extension::bit_32::parse_rs1`, src/decode/zicsr_extension.rs:37-45. -/
def zicsr_extension_bit_32_parse_rs1 : Fn := ⟨.zicsr_extension_bit_32, .parse_rs1, [(.inst, .u32), (.opkind, .other)], (.option .usize),
  (.block (.let_ .rs1 .usize (.cast (.method (.var .inst) .slice (.cons (.lit 19) (.cons (.lit 15) .nil)))
  .usize)
    (.done (.match_ (.var .opkind)
    (.cons (.or (.ctor .ZicsrOpcode .CSRRW) (.or (.ctor .ZicsrOpcode .CSRRS) (.ctor .ZicsrOpcode .CSRRC)))
    (.variantOf .Option .Some (.var .rs1))
    (.cons .wild (.variant .Option .None)
    .nil))))))⟩

/-- `zifencei_extension::bit_32::parse_rs1`, src/decode/zifencei_extension.rs:24-30. -/
def zifencei_extension_bit_32_parse_rs1 : Fn := ⟨.zifencei_extension_bit_32, .parse_rs1, [(.inst, .u32), (.opkind, .other)], (.option .usize),
  (.block (.let_ .rs1 .usize (.cast (.method (.var .inst) .slice (.cons (.lit 19) (.cons (.lit 15) .nil)))
  .usize)
    (.done (.match_ (.var .opkind)
    (.cons (.ctor .ZifenceiOpcode .FENCE) (.variantOf .Option .Some (.var .rs1))
    .nil)))))⟩

/-- `u32::parse_rs1`, src/decode/inst_32.rs:77-90. -/
def u32_parse_rs1 : Fn := ⟨.u32, .parse_rs1, [(.self, .u32), (.opkind, .other)], (.result (.option .usize)),
  (.match_ (.var .opkind)
    (.cons (.ctor1 .OpcodeKind .BaseI (.var .opc)) (.variantOf .Result .Ok (.call .base_i_bit_32 .parse_rs1
    (.cons (.var .self) (.cons (.var .opc) .nil))))
    (.cons (.ctor1 .OpcodeKind .M (.var .opc)) (.variantOf .Result .Ok (.call .m_extension_bit_32
    .parse_rs1 (.cons (.var .self) (.cons (.var .opc) .nil))))
    (.cons (.ctor1 .OpcodeKind .A (.var .opc)) (.variantOf .Result .Ok (.call .a_extension_bit_32
    .parse_rs1 (.cons (.var .self) (.cons (.var .opc) .nil))))
    (.cons (.ctor1 .OpcodeKind .Zifencei (.var .opc)) (.variantOf .Result .Ok (.call
    .zifencei_extension_bit_32 .parse_rs1 (.cons (.var .self) (.cons (.var .opc) .nil))))
    (.cons (.ctor1 .OpcodeKind .Zicsr (.var .opc)) (.variantOf .Result .Ok (.call .zicsr_extension_bit_32
    .parse_rs1 (.cons (.var .self) (.cons (.var .opc) .nil))))
    (.cons (.ctor1 .OpcodeKind .Zicfiss (.var .opc)) (.variantOf .Result .Ok (.call
    .zicfiss_extension_bit_32 .parse_rs1 (.cons (.var .self) (.cons (.var .opc) .nil))))
    (.cons (.ctor1 .OpcodeKind .Zicntr (.var .opc)) (.variantOf .Result .Ok (.call .zicntr_extension_bit_32
    .parse_rs1 (.cons (.var .self) (.cons (.var .opc) .nil))))
    (.cons (.ctor1 .OpcodeKind .Zicboz (.var .opc)) (.variantOf .Result .Ok (.call .zicboz_extension_bit_32
    .parse_rs1 (.cons (.var .self) (.cons (.var .opc) .nil))))
    (.cons (.ctor1 .OpcodeKind .Priv (.var .opc)) (.variantOf .Result .Ok (.call .priv_extension_bit_32
    .parse_rs1 (.cons (.var .self) (.cons (.var .opc) .nil))))
    (.cons (.ctor1 .OpcodeKind .C .wild) (.variantOf .Result .Err (.variant .DecodingError .Not32BitInst))
    .nil)))))))))))⟩

/-- `c_extension::bit_16::parse_rs2`, src/decode/c_extension.rs:170-195. -/
def c_extension_bit_16_parse_rs2 : Fn := ⟨.c_extension_bit_16, .parse_rs2, [(.inst, .u16), (.opkind, .other)], (.option .usize),
  (.block (.let_ .q0_rs2 .usize (.cast (.bin .add (.method (.var .inst) .slice (.cons (.lit 4) (.cons (.lit
  2) .nil))) (.lit 8)) .usize)
    (.let_ .q1_rs2 .usize (.cast (.bin .add (.method (.var .inst) .slice (.cons (.lit 4) (.cons (.lit 2)
    .nil))) (.lit 8)) .usize)
    (.let_ .q2_rs2 .usize (.cast (.method (.var .inst) .slice (.cons (.lit 6) (.cons (.lit 2) .nil)))
    .usize)
    (.done (.match_ (.var .opkind)
    (.cons (.or (.ctor .COpcode .SW) (.ctor .COpcode .SD)) (.variantOf .Option .Some (.var .q0_rs2))
    (.cons (.or (.ctor .COpcode .SUB) (.or (.ctor .COpcode .XOR) (.or (.ctor .COpcode .OR) (.or (.ctor
    .COpcode .AND) (.or (.ctor .COpcode .SUBW) (.ctor .COpcode .ADDW)))))) (.variantOf .Option .Some (.var
    .q1_rs2))
    (.cons (.or (.ctor .COpcode .JR) (.or (.ctor .COpcode .JALR) (.or (.ctor .COpcode .MV) (.or (.ctor
    .COpcode .ADD) (.or (.ctor .COpcode .SWSP) (.ctor .COpcode .SDSP)))))) (.variantOf .Option .Some (.var
    .q2_rs2))
    (.cons .wild (.variant .Option .None)
    .nil))))))))))⟩

/-- `zicfiss_extension::bit_16::parse_rs2`, src/decode/zicfiss_extension.rs:110-112. -/
def zicfiss_extension_bit_16_parse_rs2 : Fn := ⟨.zicfiss_extension_bit_16, .parse_rs2, [(._inst, .u16), (._opkind, .other)], (.option .usize),
  (.variant .Option .None)⟩

/-- `u16::parse_rs2`, src/decode/inst_16.rs:59-65. -/
def u16_parse_rs2 : Fn := ⟨.u16, .parse_rs2, [(.self, .u16), (.opkind, .other)], (.result (.option .usize)),
  (.match_ (.var .opkind)
    (.cons (.ctor1 .OpcodeKind .C (.var .opc)) (.variantOf .Result .Ok (.call .c_extension_bit_16
    .parse_rs2 (.cons (.var .self) (.cons (.var .opc) .nil))))
    (.cons (.ctor1 .OpcodeKind .Zicfiss (.var .opc)) (.variantOf .Result .Ok (.call
    .zicfiss_extension_bit_16 .parse_rs2 (.cons (.var .self) (.cons (.var .opc) .nil))))
    (.cons .wild (.variantOf .Result .Err (.variant .DecodingError .Not16BitInst))
    .nil))))⟩

/-- `a_extension::bit_32::parse_rs2`, src/decode/a_extension.rs:107-133. -/
def a_extension_bit_32_parse_rs2 : Fn := ⟨.a_extension_bit_32, .parse_rs2, [(.inst, .u32), (.opkind, .other)], (.option .usize),
  (.block (.let_ .rs2 .usize (.cast (.method (.var .inst) .slice (.cons (.lit 24) (.cons (.lit 20) .nil)))
  .usize)
    (.done (.match_ (.var .opkind)
    (.cons (.or (.ctor .AOpcode .SC_W) (.or (.ctor .AOpcode .AMOSWAP_W) (.or (.ctor .AOpcode .AMOADD_W)
    (.or (.ctor .AOpcode .AMOXOR_W) (.or (.ctor .AOpcode .AMOAND_W) (.or (.ctor .AOpcode .AMOOR_W) (.or
    (.ctor .AOpcode .AMOMIN_W) (.or (.ctor .AOpcode .AMOMAX_W) (.or (.ctor .AOpcode .AMOMINU_W) (.or (.ctor
    .AOpcode .AMOMAXU_W) (.or (.ctor .AOpcode .SC_D) (.or (.ctor .AOpcode .AMOSWAP_D) (.or (.ctor .AOpcode
    .AMOADD_D) (.or (.ctor .AOpcode .AMOXOR_D) (.or (.ctor .AOpcode .AMOAND_D) (.or (.ctor .AOpcode
    .AMOOR_D) (.or (.ctor .AOpcode .AMOMIN_D) (.or (.ctor .AOpcode .AMOMAX_D) (.or (.ctor .AOpcode
    .AMOMINU_D) (.ctor .AOpcode .AMOMAXU_D)))))))))))))))))))) (.variantOf .Option .Some (.var .rs2))
    (.cons .wild (.variant .Option .None)
    .nil))))))⟩

/-- `base_i::bit_32::parse_rs2`, src/decode/base_i.rs:237-271. -/
def base_i_bit_32_parse_rs2 : Fn := ⟨.base_i_bit_32, .parse_rs2, [(.inst, .u32), (.opkind, .other)], (.option .usize),
  (.block (.let_ .rs2 .usize (.cast (.method (.var .inst) .slice (.cons (.lit 24) (.cons (.lit 20) .nil)))
  .usize)
    (.done (.match_ (.var .opkind)
    (.cons (.or (.ctor .BaseIOpcode .BEQ) (.or (.ctor .BaseIOpcode .BNE) (.or (.ctor .BaseIOpcode .BLT)
    (.or (.ctor .BaseIOpcode .BGE) (.or (.ctor .BaseIOpcode .BLTU) (.or (.ctor .BaseIOpcode .BGEU) (.or
    (.ctor .BaseIOpcode .SB) (.or (.ctor .BaseIOpcode .SH) (.or (.ctor .BaseIOpcode .SW) (.or (.ctor
    .BaseIOpcode .ADD) (.or (.ctor .BaseIOpcode .SUB) (.or (.ctor .BaseIOpcode .SLL) (.or (.ctor
    .BaseIOpcode .SLT) (.or (.ctor .BaseIOpcode .SLTU) (.or (.ctor .BaseIOpcode .XOR) (.or (.ctor
    .BaseIOpcode .SRL) (.or (.ctor .BaseIOpcode .SRA) (.or (.ctor .BaseIOpcode .OR) (.or (.ctor
    .BaseIOpcode .AND) (.or (.ctor .BaseIOpcode .SD) (.or (.ctor .BaseIOpcode .ADDW) (.or (.ctor
    .BaseIOpcode .SUBW) (.or (.ctor .BaseIOpcode .SLLW) (.or (.ctor .BaseIOpcode .SRLW) (.ctor .BaseIOpcode
    .SRAW))))))))))))))))))))))))) (.variantOf .Option .Some (.var .rs2))
    (.cons .wild (.variant .Option .None)
    .nil))))))⟩

/-- `m_extension::bit_32::parse_rs2`, src/decode/m_extension.rs:77-95. -/
def m_extension_bit_32_parse_rs2 : Fn := ⟨.m_extension_bit_32, .parse_rs2, [(.inst, .u32), (.opkind, .other)], (.option .usize),
  (.block (.let_ .rs2 .usize (.cast (.method (.var .inst) .slice (.cons (.lit 24) (.cons (.lit 20) .nil)))
  .usize)
    (.done (.match_ (.var .opkind)
    (.cons (.or (.ctor .MOpcode .MUL) (.or (.ctor .MOpcode .MULH) (.or (.ctor .MOpcode .MULHSU) (.or (.ctor
    .MOpcode .MULHU) (.or (.ctor .MOpcode .DIV) (.or (.ctor .MOpcode .DIVU) (.or (.ctor .MOpcode .REM) (.or
    (.ctor .MOpcode .REMU) (.or (.ctor .MOpcode .MULW) (.or (.ctor .MOpcode .DIVW) (.or (.ctor .MOpcode
    .DIVUW) (.or (.ctor .MOpcode .REMW) (.ctor .MOpcode .REMUW))))))))))))) (.variantOf .Option .Some (.var
    .rs2))
    .nil)))))⟩

/-- `priv_extension::bit_32::parse_rs2`, src/decode/priv_extension.rs:35-42. -/
def priv_extension_bit_32_parse_rs2 : Fn := ⟨.priv_extension_bit_32, .parse_rs2, [(.inst, .u32), (.opkind, .other)], (.option .usize),
  (.block (.let_ .rs2 .usize (.cast (.method (.var .inst) .slice (.cons (.lit 24) (.cons (.lit 20) .nil)))
  .usize)
    (.done (.match_ (.var .opkind)
    (.cons (.ctor .PrivOpcode .SFENCE_VMA) (.variantOf .Option .Some (.var .rs2))
    (.cons .wild (.variant .Option .None)
    .nil))))))⟩

/-- `zicboz_extension::bit_32::parse_rs2`, src/decode/zicboz_extension.rs:40-42. -/
def zicboz_extension_bit_32_parse_rs2 : Fn := ⟨.zicboz_extension_bit_32, .parse_rs2, [(._inst, .u32), (._opkind, .other)], (.option .usize),
  (.variant .Option .None)⟩

/-- `zicfiss_extension::bit_32::parse_rs2`, src/decode/zicfiss_extension.rs:58-67. -/
def zicfiss_extension_bit_32_parse_rs2 : Fn := ⟨.zicfiss_extension_bit_32, .parse_rs2, [(.inst, .u32), (.opkind, .other)], (.option .usize),
  (.block (.let_ .rs2 .usize (.cast (.method (.var .inst) .slice (.cons (.lit 24) (.cons (.lit 20) .nil)))
  .usize)
    (.done (.match_ (.var .opkind)
    (.cons (.or (.ctor .ZicfissOpcode .SSPUSH) (.or (.ctor .ZicfissOpcode .SSAMOSWAP_W) (.ctor
    .ZicfissOpcode .SSAMOSWAP_D))) (.variantOf .Option .Some (.var .rs2))
    (.cons (.or (.ctor .ZicfissOpcode .SSPOPCHK) (.ctor .ZicfissOpcode .SSRDP)) (.variant .Option .None)
    (.cons (.or (.ctor .ZicfissOpcode .C_SSPUSH) (.ctor .ZicfissOpcode .C_SSPOPCHK)) .unreachable
    .nil)))))))⟩

/-- `zicntr_extension::bit_32::parse_rs2`, src/decode/zicntr_extension.rs:53-62. -/
def zicntr_extension_bit_32_parse_rs2 : Fn := ⟨.zicntr_extension_bit_32, .parse_rs2, [(._inst, .u32), (.opkind, .other)], (.option .usize),
  (.match_ (.var .opkind)
    (.cons (.or (.ctor .ZicntrOpcode .RDCYCLE) (.or (.ctor .ZicntrOpcode .RDTIME) (.or (.ctor .ZicntrOpcode
    .RDINSTRET) (.or (.ctor .ZicntrOpcode .RDCYCLE_H) (.or (.ctor .ZicntrOpcode .RDTIME_H) (.ctor
    .ZicntrOpcode .RDINSTRET_H)))))) (.variant .Option .None)
    .nil))⟩

/-- `zicsr_extension::bit_32::parse_rs2`, src/decode/zicsr_extension.rs:48-59. -/
def zicsr_extension_bit_32_parse_rs2 : Fn := ⟨.zicsr_extension_bit_32, .parse_rs2, [(.inst, .u32), (.opkind, .other)], (.option .usize),
  (.block (.let_ .csr .usize (.cast (.method (.var .inst) .slice (.cons (.lit 31) (.cons (.lit 20) .nil)))
  .usize)
    (.done (.match_ (.var .opkind)
    (.cons (.or (.ctor .ZicsrOpcode .CSRRW) (.or (.ctor .ZicsrOpcode .CSRRS) (.or (.ctor .ZicsrOpcode
    .CSRRC) (.or (.ctor .ZicsrOpcode .CSRRWI) (.or (.ctor .ZicsrOpcode .CSRRSI) (.ctor .ZicsrOpcode
    .CSRRCI)))))) (.variantOf .Option .Some (.var .csr))
    .nil)))))⟩

/-- `zifencei_extension::bit_32::parse_rs2`, src/decode/zifencei_extension.rs:33-37. -/
def zifencei_extension_bit_32_parse_rs2 : Fn := ⟨.zifencei_extension_bit_32, .parse_rs2, [(._inst, .u32), (.opkind, .other)], (.option .usize),
  (.match_ (.var .opkind)
    (.cons (.ctor .ZifenceiOpcode .FENCE) (.variant .Option .None)
    .nil))⟩

/-- `u32::parse_rs2`, src/decode/inst_32.rs:92-105. -/
def u32_parse_rs2 : Fn := ⟨.u32, .parse_rs2, [(.self, .u32), (.opkind, .other)], (.result (.option .usize)),
  (.match_ (.var .opkind)
    (.cons (.ctor1 .OpcodeKind .BaseI (.var .opc)) (.variantOf .Result .Ok (.call .base_i_bit_32 .parse_rs2
    (.cons (.var .self) (.cons (.var .opc) .nil))))
    (.cons (.ctor1 .OpcodeKind .M (.var .opc)) (.variantOf .Result .Ok (.call .m_extension_bit_32
    .parse_rs2 (.cons (.var .self) (.cons (.var .opc) .nil))))
    (.cons (.ctor1 .OpcodeKind .A (.var .opc)) (.variantOf .Result .Ok (.call .a_extension_bit_32
    .parse_rs2 (.cons (.var .self) (.cons (.var .opc) .nil))))
    (.cons (.ctor1 .OpcodeKind .Zifencei (.var .opc)) (.variantOf .Result .Ok (.call
    .zifencei_extension_bit_32 .parse_rs2 (.cons (.var .self) (.cons (.var .opc) .nil))))
    (.cons (.ctor1 .OpcodeKind .Zicsr (.var .opc)) (.variantOf .Result .Ok (.call .zicsr_extension_bit_32
    .parse_rs2 (.cons (.var .self) (.cons (.var .opc) .nil))))
    (.cons (.ctor1 .OpcodeKind .Zicfiss (.var .opc)) (.variantOf .Result .Ok (.call
    .zicfiss_extension_bit_32 .parse_rs2 (.cons (.var .self) (.cons (.var .opc) .nil))))
    (.cons (.ctor1 .OpcodeKind .Zicntr (.var .opc)) (.variantOf .Result .Ok (.call .zicntr_extension_bit_32
    .parse_rs2 (.cons (.var .self) (.cons (.var .opc) .nil))))
    (.cons (.ctor1 .OpcodeKind .Zicboz (.var .opc)) (.variantOf .Result .Ok (.call .zicboz_extension_bit_32
    .parse_rs2 (.cons (.var .self) (.cons (.var .opc) .nil))))
    (.cons (.ctor1 .OpcodeKind .Priv (.var .opc)) (.variantOf .Result .Ok (.call .priv_extension_bit_32
    .parse_rs2 (.cons (.var .self) (.cons (.var .opc) .nil))))
    (.cons (.ctor1 .OpcodeKind .C .wild) (.variantOf .Result .Err (.variant .DecodingError .Not32BitInst))
    .nil)))))))))))⟩

/-- `u16::decode`, src/decode/inst_16.rs:8-29. -/
def u16_decode : Fn := ⟨.u16, .decode, [(.self, .u16), (.isa, .other)], (.result .other),
  (.block (.expr (.ite (.bin .eq (.var .self) (.lit 0)) (.block (.expr (.ret (.variantOf .Result .Err
  (.variant .DecodingError .IllegalInstruction)))
    (.done .unit))) .unit)
    (.let_ .new_opc .other (.question (.method (.var .self) .parse_opcode (.cons (.var .isa) .nil)))
    (.let_ .new_rd (.option .usize) (.question (.method (.var .self) .parse_rd (.cons (.var .new_opc)
    .nil)))
    (.let_ .new_rs1 (.option .usize) (.question (.method (.var .self) .parse_rs1 (.cons (.var .new_opc)
    .nil)))
    (.let_ .new_rs2 (.option .usize) (.question (.method (.var .self) .parse_rs2 (.cons (.var .new_opc)
    .nil)))
    (.let_ .new_imm (.option .i32) (.question (.method (.var .self) .parse_imm (.cons (.var .new_opc)
    (.cons (.var .isa) .nil))))
    (.let_ .new_fmt .other (.method (.var .new_opc) .get_format .nil)
    (.done (.variantOf .Result .Ok (.struct .Instruction
    (.cons .opc (.var .new_opc)
    (.cons .rd (.var .new_rd)
    (.cons .rs1 (.var .new_rs1)
    (.cons .rs2 (.var .new_rs2)
    (.cons .imm (.var .new_imm)
    (.cons .inst_format (.var .new_fmt)
    (.cons .is_compressed (.bool true)
    .nil))))))))))))))))))⟩

/-- `u32::decode`, src/decode/inst_32.rs:11-28. -/
def u32_decode : Fn := ⟨.u32, .decode, [(.self, .u32), (.isa, .other)], (.result .other),
  (.block (.let_ .new_opc .other (.question (.method (.var .self) .parse_opcode (.cons (.var .isa) .nil)))
    (.let_ .new_rd (.option .usize) (.question (.method (.var .self) .parse_rd (.cons (.var .new_opc)
    .nil)))
    (.let_ .new_rs1 (.option .usize) (.question (.method (.var .self) .parse_rs1 (.cons (.var .new_opc)
    .nil)))
    (.let_ .new_rs2 (.option .usize) (.question (.method (.var .self) .parse_rs2 (.cons (.var .new_opc)
    .nil)))
    (.let_ .new_imm (.option .i32) (.question (.method (.var .self) .parse_imm (.cons (.var .new_opc)
    (.cons (.var .isa) .nil))))
    (.let_ .new_fmt .other (.method (.var .new_opc) .get_format .nil)
    (.done (.variantOf .Result .Ok (.struct .Instruction
    (.cons .opc (.var .new_opc)
    (.cons .rd (.var .new_rd)
    (.cons .rs1 (.var .new_rs1)
    (.cons .rs2 (.var .new_rs2)
    (.cons .imm (.var .new_imm)
    (.cons .inst_format (.var .new_fmt)
    (.cons .is_compressed (.bool false)
    .nil)))))))))))))))))⟩

/-- `Instruction::try_from`, src/lib.rs:77-87. -/
def Instruction_try_from : Fn := ⟨.Instruction, .try_from, [(.inst, .usize)], (.result .other),
  (.ite (.bin .eq (.bin .and (.var .inst) (.lit 3)) (.lit 3)) (.method (.unwrap (.tryFrom .u32 (.var
  .inst))) .decode (.cons (.variant .Isa .Rv64) .nil)) (.method (.unwrap (.tryFrom .u16 (.var .inst)))
  .decode (.cons (.variant .Isa .Rv64) .nil)))⟩

/-- `instruction::reg2str`, src/instruction.rs:228-264. -/
def instruction_reg2str : Fn := ⟨.instruction, .reg2str, [(.rd_value, .usize)], .other,
  (.match_ (.var .rd_value)
    (.cons (.lit 0) (.str "zero")
    (.cons (.lit 1) (.str "ra")
    (.cons (.lit 2) (.str "sp")
    (.cons (.lit 3) (.str "gp")
    (.cons (.lit 4) (.str "tp")
    (.cons (.lit 5) (.str "t0")
    (.cons (.lit 6) (.str "t1")
    (.cons (.lit 7) (.str "t2")
    (.cons (.lit 8) (.str "s0")
    (.cons (.lit 9) (.str "s1")
    (.cons (.lit 10) (.str "a0")
    (.cons (.lit 11) (.str "a1")
    (.cons (.lit 12) (.str "a2")
    (.cons (.lit 13) (.str "a3")
    (.cons (.lit 14) (.str "a4")
    (.cons (.lit 15) (.str "a5")
    (.cons (.lit 16) (.str "a6")
    (.cons (.lit 17) (.str "a7")
    (.cons (.lit 18) (.str "s2")
    (.cons (.lit 19) (.str "s3")
    (.cons (.lit 20) (.str "s4")
    (.cons (.lit 21) (.str "s5")
    (.cons (.lit 22) (.str "s6")
    (.cons (.lit 23) (.str "s7")
    (.cons (.lit 24) (.str "s8")
    (.cons (.lit 25) (.str "s9")
    (.cons (.lit 26) (.str "s10")
    (.cons (.lit 27) (.str "s11")
    (.cons (.lit 28) (.str "t3")
    (.cons (.lit 29) (.str "t4")
    (.cons (.lit 30) (.str "t5")
    (.cons (.lit 31) (.str "t6")
    (.cons .wild .unreachable
    .nil))))))))))))))))))))))))))))))))))⟩

/-- `AOpcode::fmt`, src/instruction/a_extension.rs:37-62. -/
def AOpcode_fmt : Fn := ⟨.AOpcode, .fmt, [(.self, .other)], .other,
  (.match_ (.var .self)
    (.cons (.ctor .AOpcode .LR_W) (.write (.text "lr.w" .nil))
    (.cons (.ctor .AOpcode .SC_W) (.write (.text "sc.w" .nil))
    (.cons (.ctor .AOpcode .AMOSWAP_W) (.write (.text "amoswap.w" .nil))
    (.cons (.ctor .AOpcode .AMOADD_W) (.write (.text "amoadd.w" .nil))
    (.cons (.ctor .AOpcode .AMOXOR_W) (.write (.text "amoxor.w" .nil))
    (.cons (.ctor .AOpcode .AMOAND_W) (.write (.text "amoand.w" .nil))
    (.cons (.ctor .AOpcode .AMOOR_W) (.write (.text "amoor.w" .nil))
    (.cons (.ctor .AOpcode .AMOMIN_W) (.write (.text "amomin.w" .nil))
    (.cons (.ctor .AOpcode .AMOMAX_W) (.write (.text "amomax.w" .nil))
    (.cons (.ctor .AOpcode .AMOMINU_W) (.write (.text "amominu.w" .nil))
    (.cons (.ctor .AOpcode .AMOMAXU_W) (.write (.text "amomaxu.w" .nil))
    (.cons (.ctor .AOpcode .LR_D) (.write (.text "lr.d" .nil))
    (.cons (.ctor .AOpcode .SC_D) (.write (.text "sc.d" .nil))
    (.cons (.ctor .AOpcode .AMOSWAP_D) (.write (.text "amoswap.d" .nil))
    (.cons (.ctor .AOpcode .AMOADD_D) (.write (.text "amoadd.d" .nil))
    (.cons (.ctor .AOpcode .AMOXOR_D) (.write (.text "amoxor.d" .nil))
    (.cons (.ctor .AOpcode .AMOAND_D) (.write (.text "amoand.d" .nil))
    (.cons (.ctor .AOpcode .AMOOR_D) (.write (.text "amoor.d" .nil))
    (.cons (.ctor .AOpcode .AMOMIN_D) (.write (.text "amomin.d" .nil))
    (.cons (.ctor .AOpcode .AMOMAX_D) (.write (.text "amomax.d" .nil))
    (.cons (.ctor .AOpcode .AMOMINU_D) (.write (.text "amominu.d" .nil))
    (.cons (.ctor .AOpcode .AMOMAXU_D) (.write (.text "amomaxu.d" .nil))
    .nil)))))))))))))))))))))))⟩

/-- `BaseIOpcode::fmt`, src/instruction/base_i.rs:66-120. -/
def BaseIOpcode_fmt : Fn := ⟨.BaseIOpcode, .fmt, [(.self, .other)], .other,
  (.match_ (.var .self)
    (.cons (.ctor .BaseIOpcode .LUI) (.write (.text "lui" .nil))
    (.cons (.ctor .BaseIOpcode .AUIPC) (.write (.text "auipc" .nil))
    (.cons (.ctor .BaseIOpcode .JAL) (.write (.text "jal" .nil))
    (.cons (.ctor .BaseIOpcode .JALR) (.write (.text "jalr" .nil))
    (.cons (.ctor .BaseIOpcode .BEQ) (.write (.text "beq" .nil))
    (.cons (.ctor .BaseIOpcode .BNE) (.write (.text "bne" .nil))
    (.cons (.ctor .BaseIOpcode .BLT) (.write (.text "blt" .nil))
    (.cons (.ctor .BaseIOpcode .BGE) (.write (.text "bge" .nil))
    (.cons (.ctor .BaseIOpcode .BLTU) (.write (.text "bltu" .nil))
    (.cons (.ctor .BaseIOpcode .BGEU) (.write (.text "bgeu" .nil))
    (.cons (.ctor .BaseIOpcode .LB) (.write (.text "lb" .nil))
    (.cons (.ctor .BaseIOpcode .LH) (.write (.text "lh" .nil))
    (.cons (.ctor .BaseIOpcode .LW) (.write (.text "lw" .nil))
    (.cons (.ctor .BaseIOpcode .LBU) (.write (.text "lbu" .nil))
    (.cons (.ctor .BaseIOpcode .LHU) (.write (.text "lhu" .nil))
    (.cons (.ctor .BaseIOpcode .SB) (.write (.text "sb" .nil))
    (.cons (.ctor .BaseIOpcode .SH) (.write (.text "sh" .nil))
    (.cons (.ctor .BaseIOpcode .SW) (.write (.text "sw" .nil))
    (.cons (.ctor .BaseIOpcode .ADDI) (.write (.text "addi" .nil))
    (.cons (.ctor .BaseIOpcode .SLTI) (.write (.text "slti" .nil))
    (.cons (.ctor .BaseIOpcode .SLTIU) (.write (.text "sltiu" .nil))
    (.cons (.ctor .BaseIOpcode .XORI) (.write (.text "xori" .nil))
    (.cons (.ctor .BaseIOpcode .ORI) (.write (.text "ori" .nil))
    (.cons (.ctor .BaseIOpcode .ANDI) (.write (.text "andi" .nil))
    (.cons (.ctor .BaseIOpcode .SLLI) (.write (.text "slli" .nil))
    (.cons (.ctor .BaseIOpcode .SRLI) (.write (.text "srli" .nil))
    (.cons (.ctor .BaseIOpcode .SRAI) (.write (.text "srai" .nil))
    (.cons (.ctor .BaseIOpcode .ADD) (.write (.text "add" .nil))
    (.cons (.ctor .BaseIOpcode .SUB) (.write (.text "sub" .nil))
    (.cons (.ctor .BaseIOpcode .SLL) (.write (.text "sll" .nil))
    (.cons (.ctor .BaseIOpcode .SLT) (.write (.text "slt" .nil))
    (.cons (.ctor .BaseIOpcode .SLTU) (.write (.text "sltu" .nil))
    (.cons (.ctor .BaseIOpcode .XOR) (.write (.text "xor" .nil))
    (.cons (.ctor .BaseIOpcode .SRL) (.write (.text "srl" .nil))
    (.cons (.ctor .BaseIOpcode .SRA) (.write (.text "sra" .nil))
    (.cons (.ctor .BaseIOpcode .OR) (.write (.text "or" .nil))
    (.cons (.ctor .BaseIOpcode .AND) (.write (.text "and" .nil))
    (.cons (.ctor .BaseIOpcode .ECALL) (.write (.text "ecall" .nil))
    (.cons (.ctor .BaseIOpcode .EBREAK) (.write (.text "ebreak" .nil))
    (.cons (.ctor .BaseIOpcode .LWU) (.write (.text "lwu" .nil))
    (.cons (.ctor .BaseIOpcode .LD) (.write (.text "ld" .nil))
    (.cons (.ctor .BaseIOpcode .SD) (.write (.text "sd" .nil))
    (.cons (.ctor .BaseIOpcode .ADDIW) (.write (.text "addiw" .nil))
    (.cons (.ctor .BaseIOpcode .SLLIW) (.write (.text "slliw" .nil))
    (.cons (.ctor .BaseIOpcode .SRLIW) (.write (.text "srliw" .nil))
    (.cons (.ctor .BaseIOpcode .SRAIW) (.write (.text "sraiw" .nil))
    (.cons (.ctor .BaseIOpcode .ADDW) (.write (.text "addw" .nil))
    (.cons (.ctor .BaseIOpcode .SUBW) (.write (.text "subw" .nil))
    (.cons (.ctor .BaseIOpcode .SLLW) (.write (.text "sllw" .nil))
    (.cons (.ctor .BaseIOpcode .SRLW) (.write (.text "srlw" .nil))
    (.cons (.ctor .BaseIOpcode .SRAW) (.write (.text "sraw" .nil))
    .nil))))))))))))))))))))))))))))))))))))))))))))))))))))⟩

/-- `COpcode::fmt`, src/instruction/c_extension.rs:49-86. -/
def COpcode_fmt : Fn := ⟨.COpcode, .fmt, [(.self, .other)], .other,
  (.match_ (.var .self)
    (.cons (.ctor .COpcode .ADDI4SPN) (.write (.text "C.addi4spn" .nil))
    (.cons (.ctor .COpcode .LW) (.write (.text "C.lw" .nil))
    (.cons (.ctor .COpcode .SW) (.write (.text "C.sw" .nil))
    (.cons (.ctor .COpcode .NOP) (.write (.text "C.nop" .nil))
    (.cons (.ctor .COpcode .ADDI) (.write (.text "C.addi" .nil))
    (.cons (.ctor .COpcode .JAL) (.write (.text "C.jal" .nil))
    (.cons (.ctor .COpcode .LI) (.write (.text "C.li" .nil))
    (.cons (.ctor .COpcode .ADDI16SP) (.write (.text "C.addi16sp" .nil))
    (.cons (.ctor .COpcode .LUI) (.write (.text "C.lui" .nil))
    (.cons (.ctor .COpcode .SRLI) (.write (.text "C.srli" .nil))
    (.cons (.ctor .COpcode .SRAI) (.write (.text "C.srai" .nil))
    (.cons (.ctor .COpcode .ANDI) (.write (.text "C.andi" .nil))
    (.cons (.ctor .COpcode .SUB) (.write (.text "C.sub" .nil))
    (.cons (.ctor .COpcode .XOR) (.write (.text "C.xor" .nil))
    (.cons (.ctor .COpcode .OR) (.write (.text "C.or" .nil))
    (.cons (.ctor .COpcode .AND) (.write (.text "C.and" .nil))
    (.cons (.ctor .COpcode .J) (.write (.text "C.j" .nil))
    (.cons (.ctor .COpcode .BEQZ) (.write (.text "C.beqz" .nil))
    (.cons (.ctor .COpcode .BNEZ) (.write (.text "C.bnez" .nil))
    (.cons (.ctor .COpcode .SLLI) (.write (.text "C.slli" .nil))
    (.cons (.ctor .COpcode .LWSP) (.write (.text "C.lwsp" .nil))
    (.cons (.ctor .COpcode .JR) (.write (.text "C.jr" .nil))
    (.cons (.ctor .COpcode .MV) (.write (.text "C.mv" .nil))
    (.cons (.ctor .COpcode .EBREAK) (.write (.text "C.ebreak" .nil))
    (.cons (.ctor .COpcode .JALR) (.write (.text "C.jalr" .nil))
    (.cons (.ctor .COpcode .ADD) (.write (.text "C.add" .nil))
    (.cons (.ctor .COpcode .SWSP) (.write (.text "C.swsp" .nil))
    (.cons (.ctor .COpcode .LD) (.write (.text "C.ld" .nil))
    (.cons (.ctor .COpcode .SD) (.write (.text "C.sd" .nil))
    (.cons (.ctor .COpcode .ADDIW) (.write (.text "C.addiw" .nil))
    (.cons (.ctor .COpcode .SUBW) (.write (.text "C.subw" .nil))
    (.cons (.ctor .COpcode .ADDW) (.write (.text "C.addw" .nil))
    (.cons (.ctor .COpcode .LDSP) (.write (.text "C.ldsp" .nil))
    (.cons (.ctor .COpcode .SDSP) (.write (.text "C.sdsp" .nil))
    .nil)))))))))))))))))))))))))))))))))))⟩

/-- `MOpcode::fmt`, src/instruction/m_extension.rs:28-44. -/
def MOpcode_fmt : Fn := ⟨.MOpcode, .fmt, [(.self, .other)], .other,
  (.match_ (.var .self)
    (.cons (.ctor .MOpcode .MUL) (.write (.text "mul" .nil))
    (.cons (.ctor .MOpcode .MULH) (.write (.text "mulh" .nil))
    (.cons (.ctor .MOpcode .MULHSU) (.write (.text "mulhsu," .nil))
    (.cons (.ctor .MOpcode .MULHU) (.write (.text "mulhu" .nil))
    (.cons (.ctor .MOpcode .DIV) (.write (.text "div" .nil))
    (.cons (.ctor .MOpcode .DIVU) (.write (.text "divu" .nil))
    (.cons (.ctor .MOpcode .REM) (.write (.text "rem" .nil))
    (.cons (.ctor .MOpcode .REMU) (.write (.text "remu" .nil))
    (.cons (.ctor .MOpcode .MULW) (.write (.text "mulw" .nil))
    (.cons (.ctor .MOpcode .DIVW) (.write (.text "divw" .nil))
    (.cons (.ctor .MOpcode .DIVUW) (.write (.text "divuw" .nil))
    (.cons (.ctor .MOpcode .REMW) (.write (.text "remw" .nil))
    (.cons (.ctor .MOpcode .REMUW) (.write (.text "remuw" .nil))
    .nil))))))))))))))⟩

/-- `PrivOpcode::fmt`, src/instruction/priv_extension.rs:17-24. -/
def PrivOpcode_fmt : Fn := ⟨.PrivOpcode, .fmt, [(.self, .other)], .other,
  (.match_ (.var .self)
    (.cons (.ctor .PrivOpcode .SRET) (.write (.text "sret" .nil))
    (.cons (.ctor .PrivOpcode .MRET) (.write (.text "mret" .nil))
    (.cons (.ctor .PrivOpcode .WFI) (.write (.text "wfi" .nil))
    (.cons (.ctor .PrivOpcode .SFENCE_VMA) (.write (.text "sfence.vma" .nil))
    .nil)))))⟩

/-- `ZicbozOpcode::fmt`, src/instruction/zicboz_extension.rs:16-20. -/
def ZicbozOpcode_fmt : Fn := ⟨.ZicbozOpcode, .fmt, [(.self, .other)], .other,
  (.match_ (.var .self)
    (.cons (.ctor .ZicbozOpcode .CBO_ZERO) (.write (.text "cbo.zero" .nil))
    .nil))⟩

/-- `ZicfissOpcode::fmt`, src/instruction/zicfiss_extension.rs:27-37. -/
def ZicfissOpcode_fmt : Fn := ⟨.ZicfissOpcode, .fmt, [(.self, .other)], .other,
  (.match_ (.var .self)
    (.cons (.ctor .ZicfissOpcode .SSPUSH) (.write (.text "sspush" .nil))
    (.cons (.ctor .ZicfissOpcode .C_SSPUSH) (.write (.text "c.sspush" .nil))
    (.cons (.ctor .ZicfissOpcode .SSPOPCHK) (.write (.text "sspopchk" .nil))
    (.cons (.ctor .ZicfissOpcode .C_SSPOPCHK) (.write (.text "c.sspopchk" .nil))
    (.cons (.ctor .ZicfissOpcode .SSRDP) (.write (.text "ssrdp" .nil))
    (.cons (.ctor .ZicfissOpcode .SSAMOSWAP_W) (.write (.text "ssamoswap.w" .nil))
    (.cons (.ctor .ZicfissOpcode .SSAMOSWAP_D) (.write (.text "ssamoswap.d" .nil))
    .nil))))))))⟩

/-- `ZicntrOpcode::fmt`, src/instruction/zicntr_extension.rs:24-33. -/
def ZicntrOpcode_fmt : Fn := ⟨.ZicntrOpcode, .fmt, [(.self, .other)], .other,
  (.match_ (.var .self)
    (.cons (.ctor .ZicntrOpcode .RDCYCLE_H) (.write (.text "rdcycleh" .nil))
    (.cons (.ctor .ZicntrOpcode .RDTIME_H) (.write (.text "rdtimeh" .nil))
    (.cons (.ctor .ZicntrOpcode .RDINSTRET_H) (.write (.text "rdinstreth" .nil))
    (.cons (.ctor .ZicntrOpcode .RDCYCLE) (.write (.text "rdcycle" .nil))
    (.cons (.ctor .ZicntrOpcode .RDTIME) (.write (.text "rdtime" .nil))
    (.cons (.ctor .ZicntrOpcode .RDINSTRET) (.write (.text "rdinstret" .nil))
    .nil)))))))⟩

/-- `ZicsrOpcode::fmt`, src/instruction/zicsr_extension.rs:19-28. -/
def ZicsrOpcode_fmt : Fn := ⟨.ZicsrOpcode, .fmt, [(.self, .other)], .other,
  (.match_ (.var .self)
    (.cons (.ctor .ZicsrOpcode .CSRRW) (.write (.text "csrrw" .nil))
    (.cons (.ctor .ZicsrOpcode .CSRRS) (.write (.text "csrrs" .nil))
    (.cons (.ctor .ZicsrOpcode .CSRRC) (.write (.text "csrrc" .nil))
    (.cons (.ctor .ZicsrOpcode .CSRRWI) (.write (.text "csrrwi" .nil))
    (.cons (.ctor .ZicsrOpcode .CSRRSI) (.write (.text "csrrsi" .nil))
    (.cons (.ctor .ZicsrOpcode .CSRRCI) (.write (.text "csrrci" .nil))
    .nil)))))))⟩

/-- `ZifenceiOpcode::fmt`, src/instruction/zifencei_extension.rs:14-18. -/
def ZifenceiOpcode_fmt : Fn := ⟨.ZifenceiOpcode, .fmt, [(.self, .other)], .other,
  (.match_ (.var .self)
    (.cons (.ctor .ZifenceiOpcode .FENCE) (.write (.text "fence.i" .nil))
    .nil))⟩

/-- `OpcodeKind::fmt`, src/instruction.rs:464-477. -/
def OpcodeKind_fmt : Fn := ⟨.OpcodeKind, .fmt, [(.self, .other)], .other,
  (.match_ (.var .self)
    (.cons (.ctor1 .OpcodeKind .BaseI (.var .opc)) (.write (.arg .display (.var .opc) .nil))
    (.cons (.ctor1 .OpcodeKind .M (.var .opc)) (.write (.arg .display (.var .opc) .nil))
    (.cons (.ctor1 .OpcodeKind .A (.var .opc)) (.write (.arg .display (.var .opc) .nil))
    (.cons (.ctor1 .OpcodeKind .C (.var .opc)) (.write (.arg .display (.var .opc) .nil))
    (.cons (.ctor1 .OpcodeKind .Zifencei (.var .opc)) (.write (.arg .display (.var .opc) .nil))
    (.cons (.ctor1 .OpcodeKind .Zicboz (.var .opc)) (.write (.arg .display (.var .opc) .nil))
    (.cons (.ctor1 .OpcodeKind .Zicsr (.var .opc)) (.write (.arg .display (.var .opc) .nil))
    (.cons (.ctor1 .OpcodeKind .Zicfiss (.var .opc)) (.write (.arg .display (.var .opc) .nil))
    (.cons (.ctor1 .OpcodeKind .Zicntr (.var .opc)) (.write (.arg .display (.var .opc) .nil))
    (.cons (.ctor1 .OpcodeKind .Priv (.var .opc)) (.write (.arg .display (.var .opc) .nil))
    .nil)))))))))))⟩

/-- `Instruction::fmt`, src/instruction.rs:48-224. -/
def Instruction_fmt : Fn := ⟨.Instruction, .fmt, [(.self, .other)], .other,
  (.match_ (.field (.var .self) .inst_format)
    (.cons (.or (.ctor .InstFormat .RFormat) (.ctor .InstFormat .MFormat)) (.write (.arg .display (.field
    (.var .self) .opc) (.text " " (.arg .display (.call .instruction .reg2str (.cons (.unwrap (.field (.var
    .self) .rd)) .nil)) (.text ", " (.arg .display (.call .instruction .reg2str (.cons (.unwrap (.field
    (.var .self) .rs1)) .nil)) (.text ", " (.arg .display (.call .instruction .reg2str (.cons (.unwrap
    (.field (.var .self) .rs2)) .nil)) .nil))))))))
    (.cons (.ctor .InstFormat .AFormat) (.match_ (.field (.var .self) .opc)
    (.cons (.ctor1 .OpcodeKind .A (.or (.ctor .AOpcode .LR_W) (.ctor .AOpcode .LR_D))) (.write (.arg
    .display (.field (.var .self) .opc) (.text " " (.arg .display (.call .instruction .reg2str (.cons
    (.unwrap (.field (.var .self) .rd)) .nil)) (.text ", " (.arg .display (.call .instruction .reg2str
    (.cons (.unwrap (.field (.var .self) .rs1)) .nil)) .nil))))))
    (.cons .wild (.write (.arg .display (.field (.var .self) .opc) (.text " " (.arg .display (.call
    .instruction .reg2str (.cons (.unwrap (.field (.var .self) .rd)) .nil)) (.text ", " (.arg .display
    (.call .instruction .reg2str (.cons (.unwrap (.field (.var .self) .rs1)) .nil)) (.text ", " (.arg
    .display (.call .instruction .reg2str (.cons (.unwrap (.field (.var .self) .rs2)) .nil)) .nil))))))))
    .nil)))
    (.cons (.ctor .InstFormat .RShamtFormat) (.write (.arg .display (.field (.var .self) .opc) (.text " "
    (.arg .display (.call .instruction .reg2str (.cons (.unwrap (.field (.var .self) .rd)) .nil)) (.text
    ", " (.arg .display (.call .instruction .reg2str (.cons (.unwrap (.field (.var .self) .rs1)) .nil))
    .nil))))))
    (.cons (.or (.ctor .InstFormat .ClFormat) (.or (.ctor .InstFormat .ALrFormat) (.ctor .InstFormat
    .IFormat))) (.write (.arg .display (.field (.var .self) .opc) (.text " " (.arg .display (.call
    .instruction .reg2str (.cons (.unwrap (.field (.var .self) .rd)) .nil)) (.text ", " (.arg .display
    (.call .instruction .reg2str (.cons (.unwrap (.field (.var .self) .rs1)) .nil)) (.text ", " (.arg
    .display (.unwrap (.field (.var .self) .imm)) .nil))))))))
    (.cons (.or (.ctor .InstFormat .CsFormat) (.or (.ctor .InstFormat .SFormat) (.ctor .InstFormat
    .BFormat))) (.write (.arg .display (.field (.var .self) .opc) (.text " " (.arg .display (.call
    .instruction .reg2str (.cons (.unwrap (.field (.var .self) .rs1)) .nil)) (.text ", " (.arg .display
    (.unwrap (.field (.var .self) .imm)) (.text "(" (.arg .display (.call .instruction .reg2str (.cons
    (.unwrap (.field (.var .self) .rs2)) .nil)) (.text ")" .nil)))))))))
    (.cons (.ctor .InstFormat .CiwFormat) (.write (.arg .display (.field (.var .self) .opc) (.text " "
    (.arg .display (.call .instruction .reg2str (.cons (.unwrap (.field (.var .self) .rd)) .nil)) (.text
    ", sp, " (.arg .lowerHex (.unwrap (.field (.var .self) .imm)) .nil))))))
    (.cons (.ctor .InstFormat .CssFormat) (.write (.arg .display (.field (.var .self) .opc) (.text " "
    (.arg .display (.call .instruction .reg2str (.cons (.unwrap (.field (.var .self) .rs2)) .nil)) (.text
    ", " (.arg .display (.unwrap (.field (.var .self) .imm)) (.text "(sp)" .nil)))))))
    (.cons (.or (.ctor .InstFormat .UFormat) (.ctor .InstFormat .JFormat)) (.write (.arg .display (.field
    (.var .self) .opc) (.text " " (.arg .display (.call .instruction .reg2str (.cons (.unwrap (.field (.var
    .self) .rd)) .nil)) (.text ", " (.arg .altLowerHex (.unwrap (.field (.var .self) .imm)) .nil))))))
    (.cons (.ctor .InstFormat .CjFormat) (.write (.arg .display (.field (.var .self) .opc) (.text " " (.arg
    .display (.unwrap (.field (.var .self) .imm)) .nil))))
    (.cons (.ctor .InstFormat .CiFormat) (.write (.arg .display (.field (.var .self) .opc) (.text " " (.arg
    .display (.call .instruction .reg2str (.cons (.unwrap (.field (.var .self) .rd)) .nil)) (.text ", "
    (.arg .display (.call .instruction .reg2str (.cons (.unwrap (.field (.var .self) .rd)) .nil)) (.text
    ", " (.arg .display (.unwrap (.field (.var .self) .imm)) .nil))))))))
    (.cons (.ctor .InstFormat .CrFormat) (.match_ (.field (.var .self) .opc)
    (.cons (.ctor1 .OpcodeKind .C (.ctor .COpcode .JR)) (.write (.arg .display (.field (.var .self) .opc)
    (.text " zero, 0(" (.arg .display (.call .instruction .reg2str (.cons (.unwrap (.field (.var .self)
    .rs1)) .nil)) (.text ")" .nil)))))
    (.cons (.ctor1 .OpcodeKind .C (.ctor .COpcode .JALR)) (.write (.arg .display (.field (.var .self) .opc)
    (.text " ra, 0(" (.arg .display (.call .instruction .reg2str (.cons (.unwrap (.field (.var .self)
    .rs1)) .nil)) (.text ")" .nil)))))
    (.cons (.ctor1 .OpcodeKind .C (.ctor .COpcode .MV)) (.write (.arg .display (.field (.var .self) .opc)
    (.text " " (.arg .display (.call .instruction .reg2str (.cons (.unwrap (.field (.var .self) .rd))
    .nil)) (.text ", " (.arg .display (.call .instruction .reg2str (.cons (.unwrap (.field (.var .self)
    .rs2)) .nil)) .nil))))))
    (.cons (.ctor1 .OpcodeKind .C (.ctor .COpcode .ADD)) (.write (.arg .display (.field (.var .self) .opc)
    (.text " " (.arg .display (.call .instruction .reg2str (.cons (.unwrap (.field (.var .self) .rd))
    .nil)) (.text ", " (.arg .display (.call .instruction .reg2str (.cons (.unwrap (.field (.var .self)
    .rd)) .nil)) (.text ", " (.arg .display (.call .instruction .reg2str (.cons (.unwrap (.field (.var
    .self) .rs2)) .nil)) .nil))))))))
    (.cons .wild .unreachable
    .nil))))))
    (.cons (.ctor .InstFormat .CaFormat) (.write (.arg .display (.field (.var .self) .opc) (.text " " (.arg
    .display (.call .instruction .reg2str (.cons (.unwrap (.field (.var .self) .rd)) .nil)) (.text ", "
    (.arg .display (.call .instruction .reg2str (.cons (.unwrap (.field (.var .self) .rd)) .nil)) (.text
    ", " (.arg .display (.call .instruction .reg2str (.cons (.unwrap (.field (.var .self) .rs2)) .nil))
    .nil))))))))
    (.cons (.ctor .InstFormat .CbFormat) (.write (.arg .display (.field (.var .self) .opc) (.text " " (.arg
    .display (.unwrap (.field (.var .self) .rs1)) (.text ", " (.arg .display (.unwrap (.field (.var .self)
    .imm)) .nil))))))
    (.cons (.ctor .InstFormat .CsrFormat) (.write (.arg .display (.field (.var .self) .opc) (.text " "
    (.arg .display (.call .instruction .reg2str (.cons (.unwrap (.field (.var .self) .rd)) .nil)) (.text
    ", " (.arg .altLowerHex (.unwrap (.field (.var .self) .rs2)) (.text ", " (.arg .display (.call
    .instruction .reg2str (.cons (.unwrap (.field (.var .self) .rs1)) .nil)) .nil))))))))
    (.cons (.ctor .InstFormat .CsrUiFormat) (.write (.arg .display (.field (.var .self) .opc) (.text " "
    (.arg .display (.call .instruction .reg2str (.cons (.unwrap (.field (.var .self) .rd)) .nil)) (.text
    ", " (.arg .display (.unwrap (.field (.var .self) .rs2)) (.text ", " (.arg .display (.unwrap (.field
    (.var .self) .imm)) .nil))))))))
    (.cons (.ctor .InstFormat .OnlyRd) (.write (.arg .display (.field (.var .self) .opc) (.text " " (.arg
    .display (.call .instruction .reg2str (.cons (.unwrap (.field (.var .self) .rd)) .nil)) .nil))))
    (.cons (.ctor .InstFormat .OnlyRs1) (.write (.arg .display (.field (.var .self) .opc) (.text " " (.arg
    .display (.call .instruction .reg2str (.cons (.unwrap (.field (.var .self) .rs1)) .nil)) .nil))))
    (.cons (.ctor .InstFormat .OnlyRs2) (.write (.arg .display (.field (.var .self) .opc) (.text " " (.arg
    .display (.call .instruction .reg2str (.cons (.unwrap (.field (.var .self) .rs2)) .nil)) .nil))))
    (.cons (.ctor .InstFormat .NoOperand) (.match_ (.field (.var .self) .opc)
    (.cons (.or (.ctor1 .OpcodeKind .BaseI (.or (.ctor .BaseIOpcode .ECALL) (.ctor .BaseIOpcode .EBREAK)))
    (.or (.ctor1 .OpcodeKind .Zifencei (.ctor .ZifenceiOpcode .FENCE)) (.or (.ctor1 .OpcodeKind .C (.or
    (.ctor .COpcode .NOP) (.ctor .COpcode .EBREAK))) (.ctor1 .OpcodeKind .Priv (.or (.ctor .PrivOpcode
    .MRET) (.or (.ctor .PrivOpcode .SRET) (.or (.ctor .PrivOpcode .WFI) (.ctor .PrivOpcode
    .SFENCE_VMA)))))))) (.write (.arg .display (.field (.var .self) .opc) .nil))
    (.cons .wild .unreachable
    .nil)))
    .nil))))))))))))))))))))⟩

/-- The functions of the crate, file by file; inherited default methods come last. -/
def crate : List Fn :=
  [Instruction_try_from, decode_only_rv64, Instruction_fmt, instruction_reg2str, OpcodeKind_fmt,
  OpcodeKind_get_format, AOpcode_fmt, AOpcode_get_format, BaseIOpcode_fmt, BaseIOpcode_get_format,
  COpcode_fmt, COpcode_get_format, MOpcode_fmt, MOpcode_get_format, PrivOpcode_fmt, PrivOpcode_get_format,
  ZicbozOpcode_fmt, ZicbozOpcode_get_format, ZicfissOpcode_fmt, ZicfissOpcode_get_format, ZicntrOpcode_fmt,
  ZicntrOpcode_get_format, ZicsrOpcode_fmt, ZicsrOpcode_get_format, ZifenceiOpcode_fmt,
  ZifenceiOpcode_get_format, u16_decode, u16_parse_opcode, u16_parse_rd, u16_parse_rs1, u16_parse_rs2,
  u16_parse_imm, u16_slice, u16_parse_extension, u16_set, u32_decode, u32_parse_opcode, u32_parse_rd,
  u32_parse_rs1, u32_parse_rs2, u32_parse_imm, u32_slice, u32_parse_extension, u32_set,
  a_extension_bit_32_parse_opcode, a_extension_bit_32_parse_rd, a_extension_bit_32_parse_rs1,
  a_extension_bit_32_parse_rs2, a_extension_bit_32_parse_imm, base_i_bit_32_parse_opcode,
  base_i_bit_32_parse_rd, base_i_bit_32_parse_rs1, base_i_bit_32_parse_rs2, base_i_bit_32_parse_imm,
  c_extension_bit_16_quadrant0, c_extension_bit_16_quadrant1, c_extension_bit_16_quadrant2,
  c_extension_bit_16_parse_opcode, c_extension_bit_16_parse_rd, c_extension_bit_16_parse_rs1,
  c_extension_bit_16_parse_rs2, c_extension_bit_16_parse_imm, m_extension_bit_32_parse_opcode,
  m_extension_bit_32_parse_rd, m_extension_bit_32_parse_rs1, m_extension_bit_32_parse_rs2,
  m_extension_bit_32_parse_imm, priv_extension_bit_32_parse_opcode, priv_extension_bit_32_parse_rd,
  priv_extension_bit_32_parse_rs1, priv_extension_bit_32_parse_rs2, priv_extension_bit_32_parse_imm,
  zicboz_extension_bit_32_parse_opcode, zicboz_extension_bit_32_parse_rd,
  zicboz_extension_bit_32_parse_rs1, zicboz_extension_bit_32_parse_rs2, zicboz_extension_bit_32_parse_imm,
  zicfiss_extension_bit_32_parse_opcode, zicfiss_extension_bit_32_parse_rd,
  zicfiss_extension_bit_32_parse_rs1, zicfiss_extension_bit_32_parse_rs2,
  zicfiss_extension_bit_32_parse_imm, zicfiss_extension_bit_16_parse_opcode,
  zicfiss_extension_bit_16_parse_rd, zicfiss_extension_bit_16_parse_rs1,
  zicfiss_extension_bit_16_parse_rs2, zicfiss_extension_bit_16_parse_imm,
  zicntr_extension_bit_32_parse_opcode, zicntr_extension_bit_32_parse_rd,
  zicntr_extension_bit_32_parse_rs1, zicntr_extension_bit_32_parse_rs2, zicntr_extension_bit_32_parse_imm,
  zicsr_extension_bit_32_parse_opcode, zicsr_extension_bit_32_parse_rd, zicsr_extension_bit_32_parse_rs1,
  zicsr_extension_bit_32_parse_rs2, zicsr_extension_bit_32_parse_imm,
  zifencei_extension_bit_32_parse_opcode, zifencei_extension_bit_32_parse_rd,
  zifencei_extension_bit_32_parse_rs1, zifencei_extension_bit_32_parse_rs2,
  zifencei_extension_bit_32_parse_imm, u16_to_signed_nbit, u32_to_signed_nbit]

/-- The types the crate declares, file by file. -/
def types : List TypeDecl :=
  [⟨.Isa, [.Copy, .Clone], .enum [(.Rv32, none), (.Rv64, none)]⟩,
   ⟨.Extensions, [.Debug], .enum [(.BaseI, none), (.M, none), (.A, none), (.C, none), (.Zifencei, none),
   (.Zicboz, none), (.Zicsr, none), (.Zicfiss, none), (.Zicntr, none), (.Priv, none)]⟩,
   ⟨.DecodingError, [.Debug, .PartialEq], .enum [(.Not16BitInst, none), (.Not32BitInst, none),
   (.InvalidFunct3, none), (.InvalidFunct5, none), (.InvalidFunct6, none), (.InvalidFunct7, none),
   (.InvalidOpcode, none), (.UnknownExtension, none), (.IllegalInstruction, none), (.OnlyRv64Inst, none)]⟩,
   ⟨.Instruction, [.Debug, .PartialEq], .struct [(.opc, .other), (.rd, (.option .usize)), (.rs1, (.option
   .usize)), (.rs2, (.option .usize)), (.imm, (.option .i32)), (.inst_format, .other), (.is_compressed,
   .other)]⟩,
   ⟨.InstFormat, [.Debug, .PartialEq], .enum [(.RFormat, none), (.RShamtFormat, none), (.IFormat, none),
   (.SFormat, none), (.BFormat, none), (.UFormat, none), (.JFormat, none), (.CrFormat, none), (.CiFormat,
   none), (.CssFormat, none), (.CiwFormat, none), (.ClFormat, none), (.CsFormat, none), (.CaFormat, none),
   (.CbFormat, none), (.CjFormat, none), (.CsrFormat, none), (.CsrUiFormat, none), (.MFormat, none),
   (.AFormat, none), (.ALrFormat, none), (.NoOperand, none), (.OnlyRd, none), (.OnlyRs1, none), (.OnlyRs2,
   none)]⟩,
   ⟨.OpcodeKind, [.Debug, .PartialEq], .enum [(.BaseI, some .BaseIOpcode), (.M, some .MOpcode), (.A, some
   .AOpcode), (.C, some .COpcode), (.Zifencei, some .ZifenceiOpcode), (.Zicboz, some .ZicbozOpcode),
   (.Zicsr, some .ZicsrOpcode), (.Zicfiss, some .ZicfissOpcode), (.Zicntr, some .ZicntrOpcode), (.Priv,
   some .PrivOpcode)]⟩,
   ⟨.AOpcode, [.Debug, .PartialEq], .enum [(.LR_W, none), (.SC_W, none), (.AMOSWAP_W, none), (.AMOADD_W,
   none), (.AMOXOR_W, none), (.AMOAND_W, none), (.AMOOR_W, none), (.AMOMIN_W, none), (.AMOMAX_W, none),
   (.AMOMINU_W, none), (.AMOMAXU_W, none), (.LR_D, none), (.SC_D, none), (.AMOSWAP_D, none), (.AMOADD_D,
   none), (.AMOXOR_D, none), (.AMOAND_D, none), (.AMOOR_D, none), (.AMOMIN_D, none), (.AMOMAX_D, none),
   (.AMOMINU_D, none), (.AMOMAXU_D, none)]⟩,
   ⟨.BaseIOpcode, [.Debug, .PartialEq], .enum [(.LUI, none), (.AUIPC, none), (.JAL, none), (.JALR, none),
   (.BEQ, none), (.BNE, none), (.BLT, none), (.BGE, none), (.BLTU, none), (.BGEU, none), (.LB, none), (.LH,
   none), (.LW, none), (.LBU, none), (.LHU, none), (.SB, none), (.SH, none), (.SW, none), (.ADDI, none),
   (.SLTI, none), (.SLTIU, none), (.XORI, none), (.ORI, none), (.ANDI, none), (.SLLI, none), (.SRLI, none),
   (.SRAI, none), (.ADD, none), (.SUB, none), (.SLL, none), (.SLT, none), (.SLTU, none), (.XOR, none),
   (.SRL, none), (.SRA, none), (.OR, none), (.AND, none), (.ECALL, none), (.EBREAK, none), (.LWU, none),
   (.LD, none), (.SD, none), (.ADDIW, none), (.SLLIW, none), (.SRLIW, none), (.SRAIW, none), (.ADDW, none),
   (.SUBW, none), (.SLLW, none), (.SRLW, none), (.SRAW, none)]⟩,
   ⟨.COpcode, [.Debug, .PartialEq], .enum [(.ADDI4SPN, none), (.LW, none), (.SW, none), (.NOP, none),
   (.ADDI, none), (.JAL, none), (.LI, none), (.ADDI16SP, none), (.LUI, none), (.SRLI, none), (.SRAI, none),
   (.ANDI, none), (.SUB, none), (.XOR, none), (.OR, none), (.AND, none), (.J, none), (.BEQZ, none), (.BNEZ,
   none), (.SLLI, none), (.LWSP, none), (.JR, none), (.MV, none), (.EBREAK, none), (.JALR, none), (.ADD,
   none), (.SWSP, none), (.LD, none), (.SD, none), (.ADDIW, none), (.SUBW, none), (.ADDW, none), (.LDSP,
   none), (.SDSP, none)]⟩,
   ⟨.MOpcode, [.Debug, .PartialEq], .enum [(.MUL, none), (.MULH, none), (.MULHSU, none), (.MULHU, none),
   (.DIV, none), (.DIVU, none), (.REM, none), (.REMU, none), (.MULW, none), (.DIVW, none), (.DIVUW, none),
   (.REMW, none), (.REMUW, none)]⟩,
   ⟨.PrivOpcode, [.Debug, .PartialEq], .enum [(.MRET, none), (.SRET, none), (.WFI, none), (.SFENCE_VMA,
   none)]⟩,
   ⟨.ZicbozOpcode, [.Debug, .PartialEq], .enum [(.CBO_ZERO, none)]⟩,
   ⟨.ZicfissOpcode, [.Debug, .PartialEq], .enum [(.SSPUSH, none), (.C_SSPUSH, none), (.SSPOPCHK, none),
   (.C_SSPOPCHK, none), (.SSRDP, none), (.SSAMOSWAP_W, none), (.SSAMOSWAP_D, none)]⟩,
   ⟨.ZicntrOpcode, [.Debug, .PartialEq], .enum [(.RDCYCLE_H, none), (.RDTIME_H, none), (.RDINSTRET_H,
   none), (.RDCYCLE, none), (.RDTIME, none), (.RDINSTRET, none)]⟩,
   ⟨.ZicsrOpcode, [.Debug, .PartialEq], .enum [(.CSRRW, none), (.CSRRS, none), (.CSRRC, none), (.CSRRWI,
   none), (.CSRRSI, none), (.CSRRCI, none)]⟩,
   ⟨.ZifenceiOpcode, [.Debug, .PartialEq], .enum [(.FENCE, none)]⟩]

end Raki.Source
