import Verif.Source.Codes
/-!
# The spelling of each name

Generated by tools/text.py; do not edit.
-/

set_option linter.constructorNameAsVariable false

namespace Raki.Source

/-- The text of a name. -/
def Id.text : Id → String
  | .inst => "inst" | .decode => "decode" | .Isa => "Isa" | .Rv64 => "Rv64"
  | .Instruction => "Instruction" | .try_from => "try_from" | .Result => "Result" | .Ok => "Ok"
  | .is_compressed => "is_compressed" | .inst_format => "inst_format" | .InstFormat => "InstFormat"
  | .JFormat => "JFormat" | .imm => "imm" | .Option => "Option" | .Some => "Some" | .rs2 => "rs2"
  | .None => "None" | .rs1 => "rs1" | .rd => "rd" | .opc => "opc" | .OpcodeKind => "OpcodeKind"
  | .BaseI => "BaseI" | .BaseIOpcode => "BaseIOpcode" | .JAL => "JAL" | .CrFormat => "CrFormat"
  | .C => "C" | .COpcode => "COpcode" | .MV => "MV" | .lib_tests => "lib_tests"
  | .usize_try_from_test => "usize_try_from_test" | .inst_eq_test => "inst_eq_test" | .opcode => "opcode"
  | .Rv32 => "Rv32" | .Err => "Err" | .DecodingError => "DecodingError" | .OnlyRv64Inst => "OnlyRv64Inst"
  | .isa => "isa" | .only_rv64 => "only_rv64" | .NoOperand => "NoOperand" | .Priv => "Priv"
  | .PrivOpcode => "PrivOpcode" | .SFENCE_VMA => "SFENCE_VMA" | .WFI => "WFI" | .SRET => "SRET"
  | .MRET => "MRET" | .EBREAK => "EBREAK" | .NOP => "NOP" | .Zifencei => "Zifencei"
  | .ZifenceiOpcode => "ZifenceiOpcode" | .FENCE => "FENCE" | .ECALL => "ECALL" | .self => "self"
  | .OnlyRs2 => "OnlyRs2" | .instruction => "instruction" | .reg2str => "reg2str" | .OnlyRs1 => "OnlyRs1"
  | .OnlyRd => "OnlyRd" | .CsrUiFormat => "CsrUiFormat" | .CsrFormat => "CsrFormat"
  | .CbFormat => "CbFormat" | .CaFormat => "CaFormat" | .ADD => "ADD" | .JALR => "JALR" | .JR => "JR"
  | .CiFormat => "CiFormat" | .CjFormat => "CjFormat" | .UFormat => "UFormat" | .CssFormat => "CssFormat"
  | .CiwFormat => "CiwFormat" | .BFormat => "BFormat" | .SFormat => "SFormat" | .CsFormat => "CsFormat"
  | .IFormat => "IFormat" | .ALrFormat => "ALrFormat" | .ClFormat => "ClFormat"
  | .RShamtFormat => "RShamtFormat" | .AFormat => "AFormat" | .A => "A" | .AOpcode => "AOpcode"
  | .LR_D => "LR_D" | .LR_W => "LR_W" | .MFormat => "MFormat" | .RFormat => "RFormat" | .fmt => "fmt"
  | .rd_value => "rd_value" | .Zicntr => "Zicntr" | .Zicfiss => "Zicfiss" | .Zicsr => "Zicsr"
  | .Zicboz => "Zicboz" | .M => "M" | .get_format => "get_format" | .AMOMAXU_D => "AMOMAXU_D"
  | .AMOMINU_D => "AMOMINU_D" | .AMOMAX_D => "AMOMAX_D" | .AMOMIN_D => "AMOMIN_D" | .AMOOR_D => "AMOOR_D"
  | .AMOAND_D => "AMOAND_D" | .AMOXOR_D => "AMOXOR_D" | .AMOADD_D => "AMOADD_D"
  | .AMOSWAP_D => "AMOSWAP_D" | .SC_D => "SC_D" | .AMOMAXU_W => "AMOMAXU_W" | .AMOMINU_W => "AMOMINU_W"
  | .AMOMAX_W => "AMOMAX_W" | .AMOMIN_W => "AMOMIN_W" | .AMOOR_W => "AMOOR_W" | .AMOAND_W => "AMOAND_W"
  | .AMOXOR_W => "AMOXOR_W" | .AMOADD_W => "AMOADD_W" | .AMOSWAP_W => "AMOSWAP_W" | .SC_W => "SC_W"
  | .SRAW => "SRAW" | .SRLW => "SRLW" | .SLLW => "SLLW" | .SUBW => "SUBW" | .ADDW => "ADDW"
  | .SRAIW => "SRAIW" | .SRLIW => "SRLIW" | .SLLIW => "SLLIW" | .ADDIW => "ADDIW" | .SD => "SD"
  | .LD => "LD" | .LWU => "LWU" | .AND => "AND" | .OR => "OR" | .SRA => "SRA" | .SRL => "SRL"
  | .XOR => "XOR" | .SLTU => "SLTU" | .SLT => "SLT" | .SLL => "SLL" | .SUB => "SUB" | .SRAI => "SRAI"
  | .SRLI => "SRLI" | .SLLI => "SLLI" | .ANDI => "ANDI" | .ORI => "ORI" | .XORI => "XORI"
  | .SLTIU => "SLTIU" | .SLTI => "SLTI" | .ADDI => "ADDI" | .SW => "SW" | .SH => "SH" | .SB => "SB"
  | .LHU => "LHU" | .LBU => "LBU" | .LW => "LW" | .LH => "LH" | .LB => "LB" | .BGEU => "BGEU"
  | .BLTU => "BLTU" | .BGE => "BGE" | .BLT => "BLT" | .BNE => "BNE" | .BEQ => "BEQ" | .AUIPC => "AUIPC"
  | .LUI => "LUI" | .SDSP => "SDSP" | .LDSP => "LDSP" | .SWSP => "SWSP" | .LWSP => "LWSP"
  | .BNEZ => "BNEZ" | .BEQZ => "BEQZ" | .J => "J" | .ADDI16SP => "ADDI16SP" | .LI => "LI"
  | .ADDI4SPN => "ADDI4SPN" | .MOpcode => "MOpcode" | .REMUW => "REMUW" | .REMW => "REMW"
  | .DIVUW => "DIVUW" | .DIVW => "DIVW" | .MULW => "MULW" | .REMU => "REMU" | .REM => "REM"
  | .DIVU => "DIVU" | .DIV => "DIV" | .MULHU => "MULHU" | .MULHSU => "MULHSU" | .MULH => "MULH"
  | .MUL => "MUL" | .ZicbozOpcode => "ZicbozOpcode" | .CBO_ZERO => "CBO_ZERO"
  | .ZicfissOpcode => "ZicfissOpcode" | .SSAMOSWAP_D => "SSAMOSWAP_D" | .SSAMOSWAP_W => "SSAMOSWAP_W"
  | .SSRDP => "SSRDP" | .C_SSPOPCHK => "C_SSPOPCHK" | .SSPOPCHK => "SSPOPCHK" | .C_SSPUSH => "C_SSPUSH"
  | .SSPUSH => "SSPUSH" | .ZicntrOpcode => "ZicntrOpcode" | .RDINSTRET => "RDINSTRET"
  | .RDTIME => "RDTIME" | .RDCYCLE => "RDCYCLE" | .RDINSTRET_H => "RDINSTRET_H" | .RDTIME_H => "RDTIME_H"
  | .RDCYCLE_H => "RDCYCLE_H" | .ZicsrOpcode => "ZicsrOpcode" | .CSRRCI => "CSRRCI" | .CSRRSI => "CSRRSI"
  | .CSRRWI => "CSRRWI" | .CSRRC => "CSRRC" | .CSRRS => "CSRRS" | .CSRRW => "CSRRW"
  | .IllegalInstruction => "IllegalInstruction" | .new_opc => "new_opc" | .parse_opcode => "parse_opcode"
  | .new_rd => "new_rd" | .parse_rd => "parse_rd" | .new_rs1 => "new_rs1" | .parse_rs1 => "parse_rs1"
  | .new_rs2 => "new_rs2" | .parse_rs2 => "parse_rs2" | .new_imm => "new_imm" | .parse_imm => "parse_imm"
  | .new_fmt => "new_fmt" | .u16 => "u16" | .extension => "extension"
  | .parse_extension => "parse_extension" | .Not16BitInst => "Not16BitInst" | .Extensions => "Extensions"
  | .zicfiss_extension_bit_16 => "zicfiss_extension_bit_16" | .c_extension_bit_16 => "c_extension_bit_16"
  | .opkind => "opkind" | ._isa => "_isa" | .«end» => "end" | .start => "start" | .slice => "slice"
  | .i => "i" | .m => "m" | .mask => "mask" | .«set» => "set" | .op_16 => "op_16" | .inst_16 => "inst_16"
  | .e => "e" | .op => "op" | .location => "location" | .test_16 => "test_16"
  | .test_16_in_rv32 => "test_16_in_rv32" | .test_16_in_rv64 => "test_16_in_rv64" | .u32 => "u32"
  | .decoding_err => "decoding_err" | .Not32BitInst => "Not32BitInst"
  | .priv_extension_bit_32 => "priv_extension_bit_32"
  | .zicboz_extension_bit_32 => "zicboz_extension_bit_32"
  | .zicntr_extension_bit_32 => "zicntr_extension_bit_32"
  | .zicfiss_extension_bit_32 => "zicfiss_extension_bit_32"
  | .zicsr_extension_bit_32 => "zicsr_extension_bit_32"
  | .zifencei_extension_bit_32 => "zifencei_extension_bit_32"
  | .a_extension_bit_32 => "a_extension_bit_32" | .m_extension_bit_32 => "m_extension_bit_32"
  | .base_i_bit_32 => "base_i_bit_32" | .opmap => "opmap" | .funct3 => "funct3" | .funct5 => "funct5"
  | .funct7 => "funct7" | .csr => "csr" | .UnknownExtension => "UnknownExtension" | .op_32 => "op_32"
  | .inst_32 => "inst_32" | .test_32 => "test_32" | .test_32_in_rv32 => "test_32_in_rv32"
  | .test_32_in_rv64 => "test_32_in_rv64" | .InvalidOpcode => "InvalidOpcode"
  | .InvalidFunct3 => "InvalidFunct3" | .InvalidFunct7 => "InvalidFunct7" | .aq_and_rl => "aq_and_rl"
  | .a_extension_test_a => "a_extension_test_a" | .a_decode_test => "a_decode_test" | .funct6 => "funct6"
  | .InvalidFunct5 => "InvalidFunct5" | .InvalidFunct6 => "InvalidFunct6" | .U_type => "U_type"
  | .imm32 => "imm32" | .to_signed_nbit => "to_signed_nbit" | .I_type => "I_type" | .S_type => "S_type"
  | .B_type => "B_type" | .J_type => "J_type" | .shamt5 => "shamt5" | .shamt6 => "shamt6"
  | .base_i_test_basei => "base_i_test_basei" | .basei_decode_test => "basei_decode_test"
  | ._inst => "_inst" | .quadrant0 => "quadrant0" | .sr_flag => "sr_flag" | .lo_flag => "lo_flag"
  | .mi_flag => "mi_flag" | .bit_12 => "bit_12" | .quadrant1 => "quadrant1" | .hi_flag => "hi_flag"
  | .quadrant2 => "quadrant2" | .quadrant => "quadrant" | .q0_rd => "q0_rd" | .q1_rd => "q1_rd"
  | .q1_wide_rd => "q1_wide_rd" | .q2_rd => "q2_rd" | .q0_rs1 => "q0_rs1" | .q1_rs1 => "q1_rs1"
  | .q1_addi_rs1 => "q1_addi_rs1" | .q2_rs1 => "q2_rs1" | .q0_rs2 => "q0_rs2" | .q1_rs2 => "q1_rs2"
  | .q2_rs2 => "q2_rs2" | .q0_uimm => "q0_uimm" | .q0_uimm_64 => "q0_uimm_64" | .q0_nzuimm => "q0_nzuimm"
  | .q1_nzuimm => "q1_nzuimm" | .imm16 => "imm16" | .q1_nzimm => "q1_nzimm" | .q1_imm => "q1_imm"
  | .q1_j_imm => "q1_j_imm" | .q1_b_imm => "q1_b_imm" | .q1_16sp_nzimm => "q1_16sp_nzimm"
  | .q1_lui_imm => "q1_lui_imm" | .q2_imm => "q2_imm" | .q2_lwsp_imm => "q2_lwsp_imm"
  | .q2_ldsp_imm => "q2_ldsp_imm" | .q2_swsp_imm => "q2_swsp_imm" | .q2_sdsp_imm => "q2_sdsp_imm"
  | .c_extension_test_c => "c_extension_test_c" | .c_decode_test => "c_decode_test"
  | ._opkind => "_opkind" | .m_extension_test_m => "m_extension_test_m"
  | .m_decode_test => "m_decode_test" | ._opmap => "_opmap" | ._funct3 => "_funct3"
  | .priv_extension_test_priv => "priv_extension_test_priv" | .priv_decode_test => "priv_decode_test"
  | .field_11_7 => "field_11_7" | .cbo_num => "cbo_num"
  | .zicboz_extension_test_zicboz => "zicboz_extension_test_zicboz"
  | .zicboz_decode_test => "zicboz_decode_test" | .funct7_rs2 => "funct7_rs2"
  | .zicfiss_extension_test_zicfiss => "zicfiss_extension_test_zicfiss"
  | .zicfiss_32bit_decode_test => "zicfiss_32bit_decode_test" | .zicfiss_16 => "zicfiss_16"
  | .csr_num => "csr_num" | .zicntr_extension_test_zicntr => "zicntr_extension_test_zicntr"
  | .zicntr_decode_test => "zicntr_decode_test" | .uimm => "uimm"
  | .zicsr_extension_test_zicsr => "zicsr_extension_test_zicsr"
  | .zicsr_decode_test => "zicsr_decode_test" | .fm_pred_succ => "fm_pred_succ"
  | .zifencei_extension_test_zifenci => "zifencei_extension_test_zifenci"
  | .zifenci_decode_test => "zifenci_decode_test" | .bit_size => "bit_size" | .u8 => "u8"
  | .usize => "usize" | .i32 => "i32"

/-- All names. -/
def Id.all : List Id :=
  [
    .inst, .decode, .Isa, .Rv64, .Instruction, .try_from, .Result, .Ok, .is_compressed, .inst_format,
    .InstFormat, .JFormat, .imm, .Option, .Some, .rs2, .None, .rs1, .rd, .opc, .OpcodeKind, .BaseI,
    .BaseIOpcode, .JAL, .CrFormat, .C, .COpcode, .MV, .lib_tests, .usize_try_from_test, .inst_eq_test,
    .opcode, .Rv32, .Err, .DecodingError, .OnlyRv64Inst, .isa, .only_rv64, .NoOperand, .Priv, .PrivOpcode,
    .SFENCE_VMA, .WFI, .SRET, .MRET, .EBREAK, .NOP, .Zifencei, .ZifenceiOpcode, .FENCE, .ECALL, .self,
    .OnlyRs2, .instruction, .reg2str, .OnlyRs1, .OnlyRd, .CsrUiFormat, .CsrFormat, .CbFormat, .CaFormat,
    .ADD, .JALR, .JR, .CiFormat, .CjFormat, .UFormat, .CssFormat, .CiwFormat, .BFormat, .SFormat,
    .CsFormat, .IFormat, .ALrFormat, .ClFormat, .RShamtFormat, .AFormat, .A, .AOpcode, .LR_D, .LR_W,
    .MFormat, .RFormat, .fmt, .rd_value, .Zicntr, .Zicfiss, .Zicsr, .Zicboz, .M, .get_format, .AMOMAXU_D,
    .AMOMINU_D, .AMOMAX_D, .AMOMIN_D, .AMOOR_D, .AMOAND_D, .AMOXOR_D, .AMOADD_D, .AMOSWAP_D, .SC_D,
    .AMOMAXU_W, .AMOMINU_W, .AMOMAX_W, .AMOMIN_W, .AMOOR_W, .AMOAND_W, .AMOXOR_W, .AMOADD_W, .AMOSWAP_W,
    .SC_W, .SRAW, .SRLW, .SLLW, .SUBW, .ADDW, .SRAIW, .SRLIW, .SLLIW, .ADDIW, .SD, .LD, .LWU, .AND, .OR,
    .SRA, .SRL, .XOR, .SLTU, .SLT, .SLL, .SUB, .SRAI, .SRLI, .SLLI, .ANDI, .ORI, .XORI, .SLTIU, .SLTI,
    .ADDI, .SW, .SH, .SB, .LHU, .LBU, .LW, .LH, .LB, .BGEU, .BLTU, .BGE, .BLT, .BNE, .BEQ, .AUIPC, .LUI,
    .SDSP, .LDSP, .SWSP, .LWSP, .BNEZ, .BEQZ, .J, .ADDI16SP, .LI, .ADDI4SPN, .MOpcode, .REMUW, .REMW,
    .DIVUW, .DIVW, .MULW, .REMU, .REM, .DIVU, .DIV, .MULHU, .MULHSU, .MULH, .MUL, .ZicbozOpcode,
    .CBO_ZERO, .ZicfissOpcode, .SSAMOSWAP_D, .SSAMOSWAP_W, .SSRDP, .C_SSPOPCHK, .SSPOPCHK, .C_SSPUSH,
    .SSPUSH, .ZicntrOpcode, .RDINSTRET, .RDTIME, .RDCYCLE, .RDINSTRET_H, .RDTIME_H, .RDCYCLE_H,
    .ZicsrOpcode, .CSRRCI, .CSRRSI, .CSRRWI, .CSRRC, .CSRRS, .CSRRW, .IllegalInstruction, .new_opc,
    .parse_opcode, .new_rd, .parse_rd, .new_rs1, .parse_rs1, .new_rs2, .parse_rs2, .new_imm, .parse_imm,
    .new_fmt, .u16, .extension, .parse_extension, .Not16BitInst, .Extensions, .zicfiss_extension_bit_16,
    .c_extension_bit_16, .opkind, ._isa, .«end», .start, .slice, .i, .m, .mask, .«set», .op_16, .inst_16,
    .e, .op, .location, .test_16, .test_16_in_rv32, .test_16_in_rv64, .u32, .decoding_err, .Not32BitInst,
    .priv_extension_bit_32, .zicboz_extension_bit_32, .zicntr_extension_bit_32, .zicfiss_extension_bit_32,
    .zicsr_extension_bit_32, .zifencei_extension_bit_32, .a_extension_bit_32, .m_extension_bit_32,
    .base_i_bit_32, .opmap, .funct3, .funct5, .funct7, .csr, .UnknownExtension, .op_32, .inst_32,
    .test_32, .test_32_in_rv32, .test_32_in_rv64, .InvalidOpcode, .InvalidFunct3, .InvalidFunct7,
    .aq_and_rl, .a_extension_test_a, .a_decode_test, .funct6, .InvalidFunct5, .InvalidFunct6, .U_type,
    .imm32, .to_signed_nbit, .I_type, .S_type, .B_type, .J_type, .shamt5, .shamt6, .base_i_test_basei,
    .basei_decode_test, ._inst, .quadrant0, .sr_flag, .lo_flag, .mi_flag, .bit_12, .quadrant1, .hi_flag,
    .quadrant2, .quadrant, .q0_rd, .q1_rd, .q1_wide_rd, .q2_rd, .q0_rs1, .q1_rs1, .q1_addi_rs1, .q2_rs1,
    .q0_rs2, .q1_rs2, .q2_rs2, .q0_uimm, .q0_uimm_64, .q0_nzuimm, .q1_nzuimm, .imm16, .q1_nzimm, .q1_imm,
    .q1_j_imm, .q1_b_imm, .q1_16sp_nzimm, .q1_lui_imm, .q2_imm, .q2_lwsp_imm, .q2_ldsp_imm, .q2_swsp_imm,
    .q2_sdsp_imm, .c_extension_test_c, .c_decode_test, ._opkind, .m_extension_test_m, .m_decode_test,
    ._opmap, ._funct3, .priv_extension_test_priv, .priv_decode_test, .field_11_7, .cbo_num,
    .zicboz_extension_test_zicboz, .zicboz_decode_test, .funct7_rs2, .zicfiss_extension_test_zicfiss,
    .zicfiss_32bit_decode_test, .zicfiss_16, .csr_num, .zicntr_extension_test_zicntr, .zicntr_decode_test,
    .uimm, .zicsr_extension_test_zicsr, .zicsr_decode_test, .fm_pred_succ,
    .zifencei_extension_test_zifenci, .zifenci_decode_test, .bit_size, .u8, .usize, .i32]

theorem Id.all_getElem (i : Id) : Id.all[i.ctorIdx]? = some i := by
  cases i <;> rfl

theorem Id.mem_all (i : Id) : i ∈ Id.all := List.mem_of_getElem? (Id.all_getElem i)

/-- The table of spellings lists every name with its text. -/
theorem spelling_ids : spelling.drop 48 = Id.all.map fun i => (i.text, Word.id i) := by
  kernel_rfl

theorem mem_spelling (i : Id) : (i.text, Word.id i) ∈ spelling := by
  apply List.mem_of_mem_drop (i := 48)
  rw [spelling_ids]
  exact List.mem_map.2 ⟨i, Id.mem_all i, rfl⟩

end Raki.Source
