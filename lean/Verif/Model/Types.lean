/-!
# Opcode enumerations, instruction formats and their text

Models `/repo/src/instruction/*.rs` and the type definitions of `/repo/src/instruction.rs`.
Constructor names are those of the Rust enums.
-/

namespace Raki

/-- `enum InstFormat`, src/instruction.rs:269-429. -/
inductive InstFormat where
  | RFormat
  | RShamtFormat
  | IFormat
  | SFormat
  | BFormat
  | UFormat
  | JFormat
  | CrFormat
  | CiFormat
  | CssFormat
  | CiwFormat
  | ClFormat
  | CsFormat
  | CaFormat
  | CbFormat
  | CjFormat
  | CsrFormat
  | CsrUiFormat
  | MFormat
  | AFormat
  | ALrFormat
  | NoOperand
  | OnlyRd
  | OnlyRs1
  | OnlyRs2
  deriving DecidableEq, Repr

/-- `enum BaseIOpcode`, src/instruction/base_i.rs:9-63. -/
inductive BaseIOpcode where
  | LUI
  | AUIPC
  | JAL
  | JALR
  | BEQ
  | BNE
  | BLT
  | BGE
  | BLTU
  | BGEU
  | LB
  | LH
  | LW
  | LBU
  | LHU
  | SB
  | SH
  | SW
  | ADDI
  | SLTI
  | SLTIU
  | XORI
  | ORI
  | ANDI
  | SLLI
  | SRLI
  | SRAI
  | ADD
  | SUB
  | SLL
  | SLT
  | SLTU
  | XOR
  | SRL
  | SRA
  | OR
  | AND
  | ECALL
  | EBREAK
  | LWU
  | LD
  | SD
  | ADDIW
  | SLLIW
  | SRLIW
  | SRAIW
  | ADDW
  | SUBW
  | SLLW
  | SRLW
  | SRAW
  deriving DecidableEq, Repr

/-- `impl Display for BaseIOpcode`, src/instruction/base_i.rs:65-121 (the text written to the formatter). -/
def BaseIOpcode.toStr : BaseIOpcode → String
  | .LUI => "lui"
  | .AUIPC => "auipc"
  | .JAL => "jal"
  | .JALR => "jalr"
  | .BEQ => "beq"
  | .BNE => "bne"
  | .BLT => "blt"
  | .BGE => "bge"
  | .BLTU => "bltu"
  | .BGEU => "bgeu"
  | .LB => "lb"
  | .LH => "lh"
  | .LW => "lw"
  | .LBU => "lbu"
  | .LHU => "lhu"
  | .SB => "sb"
  | .SH => "sh"
  | .SW => "sw"
  | .ADDI => "addi"
  | .SLTI => "slti"
  | .SLTIU => "sltiu"
  | .XORI => "xori"
  | .ORI => "ori"
  | .ANDI => "andi"
  | .SLLI => "slli"
  | .SRLI => "srli"
  | .SRAI => "srai"
  | .ADD => "add"
  | .SUB => "sub"
  | .SLL => "sll"
  | .SLT => "slt"
  | .SLTU => "sltu"
  | .XOR => "xor"
  | .SRL => "srl"
  | .SRA => "sra"
  | .OR => "or"
  | .AND => "and"
  | .ECALL => "ecall"
  | .EBREAK => "ebreak"
  | .LWU => "lwu"
  | .LD => "ld"
  | .SD => "sd"
  | .ADDIW => "addiw"
  | .SLLIW => "slliw"
  | .SRLIW => "srliw"
  | .SRAIW => "sraiw"
  | .ADDW => "addw"
  | .SUBW => "subw"
  | .SLLW => "sllw"
  | .SRLW => "srlw"
  | .SRAW => "sraw"

/-- `impl Opcode for BaseIOpcode :: get_format`, src/instruction/base_i.rs:123-176. -/
def BaseIOpcode.getFormat : BaseIOpcode → InstFormat
  | .BEQ | .BNE | .BLT | .BGE | .BLTU | .BGEU => .BFormat
  | .JALR | .LB | .LH | .LW | .LBU | .LHU | .ADDI | .SLTI | .SLTIU | .XORI | .ORI | .ANDI | .LWU | .LD | .ADDIW => .IFormat
  | .SLLI | .SRLI | .SRAI | .SLLIW | .SRLIW | .SRAIW => .RShamtFormat
  | .ADD | .SUB | .SLL | .SLT | .SLTU | .XOR | .SRL | .SRA | .OR | .AND | .ADDW | .SUBW | .SLLW | .SRLW | .SRAW => .RFormat
  | .SB | .SH | .SW | .SD => .SFormat
  | .JAL => .JFormat
  | .LUI | .AUIPC => .UFormat
  | .ECALL | .EBREAK => .NoOperand

/-- `enum MOpcode`, src/instruction/m_extension.rs:9-25. -/
inductive MOpcode where
  | MUL
  | MULH
  | MULHSU
  | MULHU
  | DIV
  | DIVU
  | REM
  | REMU
  | MULW
  | DIVW
  | DIVUW
  | REMW
  | REMUW
  deriving DecidableEq, Repr

/-- `impl Display for MOpcode`, src/instruction/m_extension.rs:27-45 (the text written to the formatter). -/
def MOpcode.toStr : MOpcode → String
  | .MUL => "mul"
  | .MULH => "mulh"
  | .MULHSU => "mulhsu,"
  | .MULHU => "mulhu"
  | .DIV => "div"
  | .DIVU => "divu"
  | .REM => "rem"
  | .REMU => "remu"
  | .MULW => "mulw"
  | .DIVW => "divw"
  | .DIVUW => "divuw"
  | .REMW => "remw"
  | .REMUW => "remuw"

/-- `impl Opcode for MOpcode :: get_format`, src/instruction/m_extension.rs:47-65. -/
def MOpcode.getFormat : MOpcode → InstFormat
  | .MUL | .MULH | .MULHSU | .MULHU | .DIV | .DIVU | .REM | .REMU | .MULW | .DIVW | .DIVUW | .REMW | .REMUW => .MFormat

/-- `enum AOpcode`, src/instruction/a_extension.rs:9-34. -/
inductive AOpcode where
  | LR_W
  | SC_W
  | AMOSWAP_W
  | AMOADD_W
  | AMOXOR_W
  | AMOAND_W
  | AMOOR_W
  | AMOMIN_W
  | AMOMAX_W
  | AMOMINU_W
  | AMOMAXU_W
  | LR_D
  | SC_D
  | AMOSWAP_D
  | AMOADD_D
  | AMOXOR_D
  | AMOAND_D
  | AMOOR_D
  | AMOMIN_D
  | AMOMAX_D
  | AMOMINU_D
  | AMOMAXU_D
  deriving DecidableEq, Repr

/-- `impl Display for AOpcode`, src/instruction/a_extension.rs:36-63 (the text written to the formatter). -/
def AOpcode.toStr : AOpcode → String
  | .LR_W => "lr.w"
  | .SC_W => "sc.w"
  | .AMOSWAP_W => "amoswap.w"
  | .AMOADD_W => "amoadd.w"
  | .AMOXOR_W => "amoxor.w"
  | .AMOAND_W => "amoand.w"
  | .AMOOR_W => "amoor.w"
  | .AMOMIN_W => "amomin.w"
  | .AMOMAX_W => "amomax.w"
  | .AMOMINU_W => "amominu.w"
  | .AMOMAXU_W => "amomaxu.w"
  | .LR_D => "lr.d"
  | .SC_D => "sc.d"
  | .AMOSWAP_D => "amoswap.d"
  | .AMOADD_D => "amoadd.d"
  | .AMOXOR_D => "amoxor.d"
  | .AMOAND_D => "amoand.d"
  | .AMOOR_D => "amoor.d"
  | .AMOMIN_D => "amomin.d"
  | .AMOMAX_D => "amomax.d"
  | .AMOMINU_D => "amominu.d"
  | .AMOMAXU_D => "amomaxu.d"

/-- `impl Opcode for AOpcode :: get_format`, src/instruction/a_extension.rs:65-92. -/
def AOpcode.getFormat : AOpcode → InstFormat
  | .LR_W => .ALrFormat
  | .SC_W | .AMOSWAP_W | .AMOADD_W | .AMOXOR_W | .AMOAND_W | .AMOOR_W | .AMOMIN_W | .AMOMAX_W | .AMOMINU_W | .AMOMAXU_W | .LR_D | .SC_D | .AMOSWAP_D | .AMOADD_D | .AMOXOR_D | .AMOAND_D | .AMOOR_D | .AMOMIN_D | .AMOMAX_D | .AMOMINU_D | .AMOMAXU_D => .AFormat

/-- `enum COpcode`, src/instruction/c_extension.rs:9-46. -/
inductive COpcode where
  | ADDI4SPN
  | LW
  | SW
  | NOP
  | ADDI
  | JAL
  | LI
  | ADDI16SP
  | LUI
  | SRLI
  | SRAI
  | ANDI
  | SUB
  | XOR
  | OR
  | AND
  | J
  | BEQZ
  | BNEZ
  | SLLI
  | LWSP
  | JR
  | MV
  | EBREAK
  | JALR
  | ADD
  | SWSP
  | LD
  | SD
  | ADDIW
  | SUBW
  | ADDW
  | LDSP
  | SDSP
  deriving DecidableEq, Repr

/-- `impl Display for COpcode`, src/instruction/c_extension.rs:48-87 (the text written to the formatter). -/
def COpcode.toStr : COpcode → String
  | .ADDI4SPN => "C.addi4spn"
  | .LW => "C.lw"
  | .SW => "C.sw"
  | .NOP => "C.nop"
  | .ADDI => "C.addi"
  | .JAL => "C.jal"
  | .LI => "C.li"
  | .ADDI16SP => "C.addi16sp"
  | .LUI => "C.lui"
  | .SRLI => "C.srli"
  | .SRAI => "C.srai"
  | .ANDI => "C.andi"
  | .SUB => "C.sub"
  | .XOR => "C.xor"
  | .OR => "C.or"
  | .AND => "C.and"
  | .J => "C.j"
  | .BEQZ => "C.beqz"
  | .BNEZ => "C.bnez"
  | .SLLI => "C.slli"
  | .LWSP => "C.lwsp"
  | .JR => "C.jr"
  | .MV => "C.mv"
  | .EBREAK => "C.ebreak"
  | .JALR => "C.jalr"
  | .ADD => "C.add"
  | .SWSP => "C.swsp"
  | .LD => "C.ld"
  | .SD => "C.sd"
  | .ADDIW => "C.addiw"
  | .SUBW => "C.subw"
  | .ADDW => "C.addw"
  | .LDSP => "C.ldsp"
  | .SDSP => "C.sdsp"

/-- `impl Opcode for COpcode :: get_format`, src/instruction/c_extension.rs:89-121. -/
def COpcode.getFormat : COpcode → InstFormat
  | .LW | .LD => .ClFormat
  | .ADDI4SPN => .CiwFormat
  | .SW | .SD => .CsFormat
  | .JAL | .J => .CjFormat
  | .BEQZ | .ANDI | .SRLI | .SRAI | .BNEZ => .CbFormat
  | .LI | .ADDI | .ADDIW | .ADDI16SP | .LUI => .CiFormat
  | .NOP => .NoOperand
  | .SUB | .XOR | .OR | .AND | .SUBW | .ADDW => .CaFormat
  | .LDSP | .SLLI | .LWSP => .CiFormat
  | .SDSP | .SWSP => .CssFormat
  | .JR | .JALR | .MV | .ADD => .CrFormat
  | .EBREAK => .NoOperand

/-- `enum ZifenceiOpcode`, src/instruction/zifencei_extension.rs:9-11. -/
inductive ZifenceiOpcode where
  | FENCE
  deriving DecidableEq, Repr

/-- `impl Display for ZifenceiOpcode`, src/instruction/zifencei_extension.rs:13-19 (the text written to the formatter). -/
def ZifenceiOpcode.toStr : ZifenceiOpcode → String
  | .FENCE => "fence.i"

/-- `impl Opcode for ZifenceiOpcode :: get_format`, src/instruction/zifencei_extension.rs:21-27. -/
def ZifenceiOpcode.getFormat : ZifenceiOpcode → InstFormat
  | .FENCE => .NoOperand

/-- `enum ZicbozOpcode`, src/instruction/zicboz_extension.rs:11-13. -/
inductive ZicbozOpcode where
  | CBO_ZERO
  deriving DecidableEq, Repr

/-- `impl Display for ZicbozOpcode`, src/instruction/zicboz_extension.rs:15-21 (the text written to the formatter). -/
def ZicbozOpcode.toStr : ZicbozOpcode → String
  | .CBO_ZERO => "cbo.zero"

/-- `impl Opcode for ZicbozOpcode :: get_format`, src/instruction/zicboz_extension.rs:23-29. -/
def ZicbozOpcode.getFormat : ZicbozOpcode → InstFormat
  | .CBO_ZERO => .OnlyRs1

/-- `enum ZicsrOpcode`, src/instruction/zicsr_extension.rs:9-16. -/
inductive ZicsrOpcode where
  | CSRRW
  | CSRRS
  | CSRRC
  | CSRRWI
  | CSRRSI
  | CSRRCI
  deriving DecidableEq, Repr

/-- `impl Display for ZicsrOpcode`, src/instruction/zicsr_extension.rs:18-29 (the text written to the formatter). -/
def ZicsrOpcode.toStr : ZicsrOpcode → String
  | .CSRRW => "csrrw"
  | .CSRRS => "csrrs"
  | .CSRRC => "csrrc"
  | .CSRRWI => "csrrwi"
  | .CSRRSI => "csrrsi"
  | .CSRRCI => "csrrci"

/-- `impl Opcode for ZicsrOpcode :: get_format`, src/instruction/zicsr_extension.rs:31-40. -/
def ZicsrOpcode.getFormat : ZicsrOpcode → InstFormat
  | .CSRRW | .CSRRS | .CSRRC => .CsrFormat
  | .CSRRWI | .CSRRSI | .CSRRCI => .CsrUiFormat

/-- `enum ZicfissOpcode`, src/instruction/zicfiss_extension.rs:9-24. -/
inductive ZicfissOpcode where
  | SSPUSH
  | C_SSPUSH
  | SSPOPCHK
  | C_SSPOPCHK
  | SSRDP
  | SSAMOSWAP_W
  | SSAMOSWAP_D
  deriving DecidableEq, Repr

/-- `impl Display for ZicfissOpcode`, src/instruction/zicfiss_extension.rs:26-38 (the text written to the formatter). -/
def ZicfissOpcode.toStr : ZicfissOpcode → String
  | .SSPUSH => "sspush"
  | .C_SSPUSH => "c.sspush"
  | .SSPOPCHK => "sspopchk"
  | .C_SSPOPCHK => "c.sspopchk"
  | .SSRDP => "ssrdp"
  | .SSAMOSWAP_W => "ssamoswap.w"
  | .SSAMOSWAP_D => "ssamoswap.d"

/-- `impl Opcode for ZicfissOpcode :: get_format`, src/instruction/zicfiss_extension.rs:40-50. -/
def ZicfissOpcode.getFormat : ZicfissOpcode → InstFormat
  | .SSPUSH => .OnlyRs1
  | .SSPOPCHK => .OnlyRs2
  | .SSRDP => .OnlyRd
  | .SSAMOSWAP_W | .SSAMOSWAP_D => .AFormat
  | .C_SSPUSH | .C_SSPOPCHK => .NoOperand

/-- `enum ZicntrOpcode`, src/instruction/zicntr_extension.rs:9-21. -/
inductive ZicntrOpcode where
  | RDCYCLE_H
  | RDTIME_H
  | RDINSTRET_H
  | RDCYCLE
  | RDTIME
  | RDINSTRET
  deriving DecidableEq, Repr

/-- `impl Display for ZicntrOpcode`, src/instruction/zicntr_extension.rs:23-34 (the text written to the formatter). -/
def ZicntrOpcode.toStr : ZicntrOpcode → String
  | .RDCYCLE_H => "rdcycleh"
  | .RDTIME_H => "rdtimeh"
  | .RDINSTRET_H => "rdinstreth"
  | .RDCYCLE => "rdcycle"
  | .RDTIME => "rdtime"
  | .RDINSTRET => "rdinstret"

/-- `impl Opcode for ZicntrOpcode :: get_format`, src/instruction/zicntr_extension.rs:36-47. -/
def ZicntrOpcode.getFormat : ZicntrOpcode → InstFormat
  | .RDCYCLE_H | .RDTIME_H | .RDINSTRET_H | .RDCYCLE | .RDTIME | .RDINSTRET => .OnlyRd

/-- `enum PrivOpcode`, src/instruction/priv_extension.rs:9-14. -/
inductive PrivOpcode where
  | MRET
  | SRET
  | WFI
  | SFENCE_VMA
  deriving DecidableEq, Repr

/-- `impl Display for PrivOpcode`, src/instruction/priv_extension.rs:16-25 (the text written to the formatter). -/
def PrivOpcode.toStr : PrivOpcode → String
  | .SRET => "sret"
  | .MRET => "mret"
  | .WFI => "wfi"
  | .SFENCE_VMA => "sfence.vma"

/-- `impl Opcode for PrivOpcode :: get_format`, src/instruction/priv_extension.rs:27-34. -/
def PrivOpcode.getFormat : PrivOpcode → InstFormat
  | .SRET | .MRET | .WFI => .NoOperand
  | .SFENCE_VMA => .RFormat

/-- `enum OpcodeKind`, src/instruction.rs:440-461. -/
inductive OpcodeKind where
  | BaseI (opc : BaseIOpcode)
  | M (opc : MOpcode)
  | A (opc : AOpcode)
  | C (opc : COpcode)
  | Zifencei (opc : ZifenceiOpcode)
  | Zicboz (opc : ZicbozOpcode)
  | Zicsr (opc : ZicsrOpcode)
  | Zicfiss (opc : ZicfissOpcode)
  | Zicntr (opc : ZicntrOpcode)
  | Priv (opc : PrivOpcode)
  deriving DecidableEq, Repr

/-- `impl Display for OpcodeKind`, src/instruction.rs:463-478. -/
def OpcodeKind.toStr : OpcodeKind → String
  | .BaseI opc => opc.toStr
  | .M opc => opc.toStr
  | .A opc => opc.toStr
  | .C opc => opc.toStr
  | .Zifencei opc => opc.toStr
  | .Zicboz opc => opc.toStr
  | .Zicsr opc => opc.toStr
  | .Zicfiss opc => opc.toStr
  | .Zicntr opc => opc.toStr
  | .Priv opc => opc.toStr

/-- `OpcodeKind::get_format`, src/instruction.rs:480-496. -/
def OpcodeKind.getFormat : OpcodeKind → InstFormat
  | .BaseI opc => opc.getFormat
  | .M opc => opc.getFormat
  | .A opc => opc.getFormat
  | .C opc => opc.getFormat
  | .Zifencei opc => opc.getFormat
  | .Zicboz opc => opc.getFormat
  | .Zicsr opc => opc.getFormat
  | .Zicfiss opc => opc.getFormat
  | .Zicntr opc => opc.getFormat
  | .Priv opc => opc.getFormat

/-- `struct Instruction`, src/instruction.rs:29-44.  `usize` operands are the natural numbers they
denote and the `i32` immediate is the integer it denotes. -/
structure Instruction where
  opc : OpcodeKind
  rd : Option Nat
  rs1 : Option Nat
  rs2 : Option Nat
  imm : Option Int
  instFormat : InstFormat
  isCompressed : Bool
  deriving DecidableEq, Repr

end Raki
