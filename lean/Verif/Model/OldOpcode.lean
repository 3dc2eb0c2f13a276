import Verif.Model.DecodeUtil
/-!
# The opcodes of an older version of the crate

Models `/repo/src/instruction/opcode.rs`.  The file lies in the source tree but is not part of the crate: no `mod`
declaration names it, and it would not compile, as it speaks of a flat enumeration of opcodes that is no longer
there.  Written by `tools/oldopcode.py`.

Simplified: the formats are those of `src/instruction.rs`, which this file spells differently (`R_SHAMTformat` for
`RShamtFormat`, and so on).
-/

namespace Raki

/-- The variants of `OpcodeKind` named in src/instruction/opcode.rs:289-423. -/
inductive OldOpcode where
  | LUI | AUIPC | JAL | JALR | BEQ | BNE | BLT | BGE | BLTU | BGEU | LB | LH | LW | LBU | LHU | SB | SH
  | SW | ADDI | SLTI | SLTIU | XORI | ORI | ANDI | SLLI | SRLI | SRAI | ADD | SUB | SLL | SLT | SLTU | XOR
  | SRL | SRA | OR | AND | FENCE | ECALL | EBREAK | LWU | LD | SD | ADDIW | SLLIW | SRLIW | SRAIW | ADDW
  | SUBW | SLLW | SRLW | SRAW | CSRRW | CSRRS | CSRRC | CSRRWI | CSRRSI | CSRRCI | SRET | MRET | WFI
  | SFENCE_VMA | MUL | MULH | MULHSU | MULHU | DIV | DIVU | REM | REMU | MULW | DIVW | DIVUW | REMW | REMUW
  | LR_W | SC_W | AMOSWAP_W | AMOADD_W | AMOXOR_W | AMOAND_W | AMOOR_W | AMOMIN_W | AMOMAX_W | AMOMINU_W
  | AMOMAXU_W | LR_D | SC_D | AMOSWAP_D | AMOADD_D | AMOXOR_D | AMOAND_D | AMOOR_D | AMOMIN_D | AMOMAX_D
  | AMOMINU_D | AMOMAXU_D | C_ADDI4SPN | C_LW | C_SW | C_NOP | C_ADDI | C_JAL | C_LI | C_ADDI16SP | C_LUI
  | C_SRLI | C_SRAI | C_ANDI | C_SUB | C_XOR | C_OR | C_AND | C_J | C_BEQZ | C_BNEZ | C_SLLI | C_LWSP
  | C_JR | C_MV | C_EBREAK | C_JALR | C_ADD | C_SWSP | C_LD | C_SD | C_ADDIW | C_SUBW | C_ADDW | C_LDSP
  | C_SDSP
  deriving DecidableEq, Repr

/-- `OpcodeKind::get_format`, src/instruction/opcode.rs:6-137. -/
def OldOpcode.getFormat : OldOpcode → InstFormat
  | .BEQ | .BNE | .BLT | .BGE | .BLTU | .BGEU => .BFormat
  | .JALR | .LB | .LH | .LW | .LBU | .LHU | .ADDI | .SLTI | .SLTIU | .XORI | .ORI | .ANDI | .LWU | .LD
  | .ADDIW => .IFormat
  | .SLLI | .SRLI | .SRAI | .SLLIW | .SRLIW | .SRAIW => .RShamtFormat
  | .ADD | .SUB | .SLL | .SLT | .SLTU | .XOR | .SRL | .SRA | .OR | .AND | .ADDW | .SUBW | .SLLW | .SRLW
  | .SRAW => .RFormat
  | .SB | .SH | .SW | .SD => .SFormat
  | .JAL => .JFormat
  | .LUI | .AUIPC => .UFormat
  | .ECALL | .FENCE | .EBREAK => .NoOperand
  | .CSRRW | .CSRRS | .CSRRC => .CsrFormat
  | .CSRRWI | .CSRRSI | .CSRRCI => .CsrUiFormat
  | .SRET | .MRET | .WFI => .NoOperand
  | .SFENCE_VMA => .RFormat
  | .MUL | .MULH | .MULHSU | .MULHU | .DIV | .DIVU | .REM | .REMU | .MULW | .DIVW | .DIVUW | .REMW | .REMUW
    => .MFormat
  | .LR_W => .ALrFormat
  | .SC_W | .AMOSWAP_W | .AMOADD_W | .AMOXOR_W | .AMOAND_W | .AMOOR_W | .AMOMIN_W | .AMOMAX_W | .AMOMINU_W
  | .AMOMAXU_W | .LR_D | .SC_D | .AMOSWAP_D | .AMOADD_D | .AMOXOR_D | .AMOAND_D | .AMOOR_D | .AMOMIN_D
  | .AMOMAX_D | .AMOMINU_D | .AMOMAXU_D => .AFormat
  | .C_LW | .C_LD => .ClFormat
  | .C_ADDI4SPN => .CiwFormat
  | .C_SW | .C_SD => .CsFormat
  | .C_JAL | .C_J => .CjFormat
  | .C_BEQZ | .C_ANDI | .C_SRLI | .C_SRAI | .C_BNEZ => .CbFormat
  | .C_LI | .C_ADDI | .C_ADDIW | .C_ADDI16SP | .C_LUI => .CiFormat
  | .C_NOP => .NoOperand
  | .C_SUB | .C_XOR | .C_OR | .C_AND | .C_SUBW | .C_ADDW => .CaFormat
  | .C_LDSP | .C_SLLI | .C_LWSP => .CiFormat
  | .C_SDSP | .C_SWSP => .CssFormat
  | .C_JR | .C_JALR | .C_MV | .C_ADD => .CrFormat
  | .C_EBREAK => .NoOperand

/-- `OpcodeKind::get_extension`, src/instruction/opcode.rs:141-285. -/
def OldOpcode.getExtension : OldOpcode → Extensions
  | .LUI | .AUIPC | .JAL | .JALR | .BEQ | .BNE | .BLT | .BGE | .BLTU | .BGEU | .LB | .LH | .LW | .LBU
  | .LHU | .SB | .SH | .SW | .ADDI | .SLTI | .SLTIU | .XORI | .ORI | .ANDI | .SLLI | .SRLI | .SRAI | .ADD
  | .SUB | .SLL | .SLT | .SLTU | .XOR | .SRL | .SRA | .OR | .AND | .FENCE | .ECALL | .EBREAK | .LWU | .LD
  | .SD | .ADDIW | .SLLIW | .SRLIW | .SRAIW | .ADDW | .SUBW | .SLLW | .SRLW | .SRAW => .BaseI
  | .CSRRW | .CSRRS | .CSRRC | .CSRRWI | .CSRRSI | .CSRRCI => .Zicsr
  | .SRET | .MRET | .WFI | .SFENCE_VMA => .Priv
  | .MUL | .MULH | .MULHSU | .MULHU | .DIV | .DIVU | .REM | .REMU | .MULW | .DIVW | .DIVUW | .REMW | .REMUW
    => .M
  | .LR_W | .SC_W | .AMOSWAP_W | .AMOADD_W | .AMOXOR_W | .AMOAND_W | .AMOOR_W | .AMOMIN_W | .AMOMAX_W
  | .AMOMINU_W | .AMOMAXU_W | .LR_D | .SC_D | .AMOSWAP_D | .AMOADD_D | .AMOXOR_D | .AMOAND_D | .AMOOR_D
  | .AMOMIN_D | .AMOMAX_D | .AMOMINU_D | .AMOMAXU_D => .A
  | .C_ADDI4SPN | .C_LW | .C_SW | .C_NOP | .C_ADDI | .C_JAL | .C_LI | .C_ADDI16SP | .C_LUI | .C_SRLI
  | .C_SRAI | .C_ANDI | .C_SUB | .C_XOR | .C_OR | .C_AND | .C_J | .C_BEQZ | .C_BNEZ | .C_SLLI | .C_LWSP
  | .C_JR | .C_MV | .C_EBREAK | .C_JALR | .C_ADD | .C_SWSP | .C_LD | .C_SD | .C_ADDIW | .C_SUBW | .C_ADDW
  | .C_LDSP | .C_SDSP => .C

/-- `OpcodeKind::to_string`, src/instruction/opcode.rs:289-423. -/
def OldOpcode.toStr : OldOpcode → String
  | .LUI => "lui"
  | .AUIPC => "auipc"
  | .JAL => "jal"
  | .JALR => "jalr"
  | .BEQ => "beq"
  | .BNE => "bne"
  | .BLT => "blt"
  | .BGE => "bge"
  | .BLTU => "bltu"
  | .BGEU => "bgeu"
  | .LB => "lb"
  | .LH => "lh"
  | .LW => "lw"
  | .LBU => "lbu"
  | .LHU => "lhu"
  | .SB => "sb"
  | .SH => "sh"
  | .SW => "sw"
  | .ADDI => "addi"
  | .SLTI => "slti"
  | .SLTIU => "sltiu"
  | .XORI => "xori"
  | .ORI => "ori"
  | .ANDI => "andi"
  | .SLLI => "slli"
  | .SRLI => "srli"
  | .SRAI => "srai"
  | .ADD => "add"
  | .SUB => "sub"
  | .SLL => "sll"
  | .SLT => "slt"
  | .SLTU => "sltu"
  | .XOR => "xor"
  | .SRL => "srl"
  | .SRA => "sra"
  | .OR => "or"
  | .AND => "and"
  | .FENCE => "fence"
  | .ECALL => "ecall"
  | .EBREAK => "ebreak"
  | .LWU => "lwu"
  | .LD => "ld"
  | .SD => "sd"
  | .ADDIW => "addiw"
  | .SLLIW => "slliw"
  | .SRLIW => "srliw"
  | .SRAIW => "sraiw"
  | .ADDW => "addw"
  | .SUBW => "subw"
  | .SLLW => "sllw"
  | .SRLW => "srlw"
  | .SRAW => "sraw"
  | .CSRRW => "csrrw"
  | .CSRRS => "csrrs"
  | .CSRRC => "csrrc"
  | .CSRRWI => "csrrwi"
  | .CSRRSI => "csrrsi"
  | .CSRRCI => "csrrci"
  | .SRET => "sret"
  | .MRET => "mret"
  | .WFI => "wfi"
  | .SFENCE_VMA => "sfence.vma"
  | .MUL => "mul"
  | .MULH => "mulh"
  | .MULHSU => "mulhsu"
  | .MULHU => "mulhu"
  | .DIV => "div"
  | .DIVU => "divu"
  | .REM => "rem"
  | .REMU => "remu"
  | .MULW => "mulw"
  | .DIVW => "divw"
  | .DIVUW => "divuw"
  | .REMW => "remw"
  | .REMUW => "remuw"
  | .LR_W => "lr.w"
  | .SC_W => "sc.w"
  | .AMOSWAP_W => "amoswap.w"
  | .AMOADD_W => "amoadd.w"
  | .AMOXOR_W => "amoxor.w"
  | .AMOAND_W => "amoand.w"
  | .AMOOR_W => "amoor.w"
  | .AMOMIN_W => "amomin.w"
  | .AMOMAX_W => "amomax.w"
  | .AMOMINU_W => "amominu.w"
  | .AMOMAXU_W => "amomaxu.w"
  | .LR_D => "lr.d"
  | .SC_D => "sc.d"
  | .AMOSWAP_D => "amoswap.d"
  | .AMOADD_D => "amoadd.d"
  | .AMOXOR_D => "amoxor.d"
  | .AMOAND_D => "amoand.d"
  | .AMOOR_D => "amoor.d"
  | .AMOMIN_D => "amomin.d"
  | .AMOMAX_D => "amomax.d"
  | .AMOMINU_D => "amominu.d"
  | .AMOMAXU_D => "amomaxu.d"
  | .C_ADDI4SPN => "C.addi4spn"
  | .C_LW => "C.lw"
  | .C_SW => "C.sw"
  | .C_NOP => "C.nop"
  | .C_ADDI => "C.addi"
  | .C_JAL => "C.jal"
  | .C_LI => "C.li"
  | .C_ADDI16SP => "C.addi16sp"
  | .C_LUI => "C.lui"
  | .C_SRLI => "C.srli"
  | .C_SRAI => "C.srai"
  | .C_ANDI => "C.andi"
  | .C_SUB => "C.sub"
  | .C_XOR => "C.xor"
  | .C_OR => "C.or"
  | .C_AND => "C.and"
  | .C_J => "C.j"
  | .C_BEQZ => "C.beqz"
  | .C_BNEZ => "C.bnez"
  | .C_SLLI => "C.slli"
  | .C_LWSP => "C.lwsp"
  | .C_JR => "C.jr"
  | .C_MV => "C.mv"
  | .C_EBREAK => "C.ebreak"
  | .C_JALR => "C.jalr"
  | .C_ADD => "C.add"
  | .C_SWSP => "C.swsp"
  | .C_LD => "C.ld"
  | .C_SD => "C.sd"
  | .C_ADDIW => "C.addiw"
  | .C_SUBW => "C.subw"
  | .C_ADDW => "C.addw"
  | .C_LDSP => "C.ldsp"
  | .C_SDSP => "C.sdsp"

/-- The name of a variant in src/instruction/opcode.rs. -/
def OldOpcode.ident : OldOpcode → String
  | .LUI => "LUI"
  | .AUIPC => "AUIPC"
  | .JAL => "JAL"
  | .JALR => "JALR"
  | .BEQ => "BEQ"
  | .BNE => "BNE"
  | .BLT => "BLT"
  | .BGE => "BGE"
  | .BLTU => "BLTU"
  | .BGEU => "BGEU"
  | .LB => "LB"
  | .LH => "LH"
  | .LW => "LW"
  | .LBU => "LBU"
  | .LHU => "LHU"
  | .SB => "SB"
  | .SH => "SH"
  | .SW => "SW"
  | .ADDI => "ADDI"
  | .SLTI => "SLTI"
  | .SLTIU => "SLTIU"
  | .XORI => "XORI"
  | .ORI => "ORI"
  | .ANDI => "ANDI"
  | .SLLI => "SLLI"
  | .SRLI => "SRLI"
  | .SRAI => "SRAI"
  | .ADD => "ADD"
  | .SUB => "SUB"
  | .SLL => "SLL"
  | .SLT => "SLT"
  | .SLTU => "SLTU"
  | .XOR => "XOR"
  | .SRL => "SRL"
  | .SRA => "SRA"
  | .OR => "OR"
  | .AND => "AND"
  | .FENCE => "FENCE"
  | .ECALL => "ECALL"
  | .EBREAK => "EBREAK"
  | .LWU => "LWU"
  | .LD => "LD"
  | .SD => "SD"
  | .ADDIW => "ADDIW"
  | .SLLIW => "SLLIW"
  | .SRLIW => "SRLIW"
  | .SRAIW => "SRAIW"
  | .ADDW => "ADDW"
  | .SUBW => "SUBW"
  | .SLLW => "SLLW"
  | .SRLW => "SRLW"
  | .SRAW => "SRAW"
  | .CSRRW => "CSRRW"
  | .CSRRS => "CSRRS"
  | .CSRRC => "CSRRC"
  | .CSRRWI => "CSRRWI"
  | .CSRRSI => "CSRRSI"
  | .CSRRCI => "CSRRCI"
  | .SRET => "SRET"
  | .MRET => "MRET"
  | .WFI => "WFI"
  | .SFENCE_VMA => "SFENCE_VMA"
  | .MUL => "MUL"
  | .MULH => "MULH"
  | .MULHSU => "MULHSU"
  | .MULHU => "MULHU"
  | .DIV => "DIV"
  | .DIVU => "DIVU"
  | .REM => "REM"
  | .REMU => "REMU"
  | .MULW => "MULW"
  | .DIVW => "DIVW"
  | .DIVUW => "DIVUW"
  | .REMW => "REMW"
  | .REMUW => "REMUW"
  | .LR_W => "LR_W"
  | .SC_W => "SC_W"
  | .AMOSWAP_W => "AMOSWAP_W"
  | .AMOADD_W => "AMOADD_W"
  | .AMOXOR_W => "AMOXOR_W"
  | .AMOAND_W => "AMOAND_W"
  | .AMOOR_W => "AMOOR_W"
  | .AMOMIN_W => "AMOMIN_W"
  | .AMOMAX_W => "AMOMAX_W"
  | .AMOMINU_W => "AMOMINU_W"
  | .AMOMAXU_W => "AMOMAXU_W"
  | .LR_D => "LR_D"
  | .SC_D => "SC_D"
  | .AMOSWAP_D => "AMOSWAP_D"
  | .AMOADD_D => "AMOADD_D"
  | .AMOXOR_D => "AMOXOR_D"
  | .AMOAND_D => "AMOAND_D"
  | .AMOOR_D => "AMOOR_D"
  | .AMOMIN_D => "AMOMIN_D"
  | .AMOMAX_D => "AMOMAX_D"
  | .AMOMINU_D => "AMOMINU_D"
  | .AMOMAXU_D => "AMOMAXU_D"
  | .C_ADDI4SPN => "C_ADDI4SPN"
  | .C_LW => "C_LW"
  | .C_SW => "C_SW"
  | .C_NOP => "C_NOP"
  | .C_ADDI => "C_ADDI"
  | .C_JAL => "C_JAL"
  | .C_LI => "C_LI"
  | .C_ADDI16SP => "C_ADDI16SP"
  | .C_LUI => "C_LUI"
  | .C_SRLI => "C_SRLI"
  | .C_SRAI => "C_SRAI"
  | .C_ANDI => "C_ANDI"
  | .C_SUB => "C_SUB"
  | .C_XOR => "C_XOR"
  | .C_OR => "C_OR"
  | .C_AND => "C_AND"
  | .C_J => "C_J"
  | .C_BEQZ => "C_BEQZ"
  | .C_BNEZ => "C_BNEZ"
  | .C_SLLI => "C_SLLI"
  | .C_LWSP => "C_LWSP"
  | .C_JR => "C_JR"
  | .C_MV => "C_MV"
  | .C_EBREAK => "C_EBREAK"
  | .C_JALR => "C_JALR"
  | .C_ADD => "C_ADD"
  | .C_SWSP => "C_SWSP"
  | .C_LD => "C_LD"
  | .C_SD => "C_SD"
  | .C_ADDIW => "C_ADDIW"
  | .C_SUBW => "C_SUBW"
  | .C_ADDW => "C_ADDW"
  | .C_LDSP => "C_LDSP"
  | .C_SDSP => "C_SDSP"

end Raki
