import Verif.Model.Rust
import Verif.Model.Types
/-!
# Derived `Debug` and `PartialEq`

Generated by `tools/derive.py` from the enum and struct declarations of `/repo`, which carry
`#[derive(Debug, PartialEq)]`.  The derived `Debug` writes the name of the variant (or of the struct and
its fields); this is `{:?}`, the indented `{:#?}` is in Model/DebugPretty.lean.  The derived `PartialEq` compares the
discriminants, which number the variants in the order of declaration, and then the fields.  Neither can
panic, so both are plain functions.
-/

namespace Raki

/-- Derived `Debug` of `DecodingError`, src/decode.rs:46-68. -/
def DecodingError.debug : DecodingError → String
  | .Not16BitInst => "Not16BitInst"
  | .Not32BitInst => "Not32BitInst"
  | .InvalidFunct3 => "InvalidFunct3"
  | .InvalidFunct5 => "InvalidFunct5"
  | .InvalidFunct6 => "InvalidFunct6"
  | .InvalidFunct7 => "InvalidFunct7"
  | .InvalidOpcode => "InvalidOpcode"
  | .UnknownExtension => "UnknownExtension"
  | .IllegalInstruction => "IllegalInstruction"
  | .OnlyRv64Inst => "OnlyRv64Inst"

/-- Discriminants of `DecodingError`, src/decode.rs:46-68. -/
def DecodingError.discr : DecodingError → Nat
  | .Not16BitInst => 0
  | .Not32BitInst => 1
  | .InvalidFunct3 => 2
  | .InvalidFunct5 => 3
  | .InvalidFunct6 => 4
  | .InvalidFunct7 => 5
  | .InvalidOpcode => 6
  | .UnknownExtension => 7
  | .IllegalInstruction => 8
  | .OnlyRv64Inst => 9

/-- Derived `PartialEq` of `DecodingError`, src/decode.rs:46-68. -/
def DecodingError.eq (a b : DecodingError) : Bool := a.discr == b.discr

/-- Derived `Debug` of `InstFormat`, src/instruction.rs:268-429. -/
def InstFormat.debug : InstFormat → String
  | .RFormat => "RFormat"
  | .RShamtFormat => "RShamtFormat"
  | .IFormat => "IFormat"
  | .SFormat => "SFormat"
  | .BFormat => "BFormat"
  | .UFormat => "UFormat"
  | .JFormat => "JFormat"
  | .CrFormat => "CrFormat"
  | .CiFormat => "CiFormat"
  | .CssFormat => "CssFormat"
  | .CiwFormat => "CiwFormat"
  | .ClFormat => "ClFormat"
  | .CsFormat => "CsFormat"
  | .CaFormat => "CaFormat"
  | .CbFormat => "CbFormat"
  | .CjFormat => "CjFormat"
  | .CsrFormat => "CsrFormat"
  | .CsrUiFormat => "CsrUiFormat"
  | .MFormat => "MFormat"
  | .AFormat => "AFormat"
  | .ALrFormat => "ALrFormat"
  | .NoOperand => "NoOperand"
  | .OnlyRd => "OnlyRd"
  | .OnlyRs1 => "OnlyRs1"
  | .OnlyRs2 => "OnlyRs2"

/-- Discriminants of `InstFormat`, src/instruction.rs:268-429. -/
def InstFormat.discr : InstFormat → Nat
  | .RFormat => 0
  | .RShamtFormat => 1
  | .IFormat => 2
  | .SFormat => 3
  | .BFormat => 4
  | .UFormat => 5
  | .JFormat => 6
  | .CrFormat => 7
  | .CiFormat => 8
  | .CssFormat => 9
  | .CiwFormat => 10
  | .ClFormat => 11
  | .CsFormat => 12
  | .CaFormat => 13
  | .CbFormat => 14
  | .CjFormat => 15
  | .CsrFormat => 16
  | .CsrUiFormat => 17
  | .MFormat => 18
  | .AFormat => 19
  | .ALrFormat => 20
  | .NoOperand => 21
  | .OnlyRd => 22
  | .OnlyRs1 => 23
  | .OnlyRs2 => 24

/-- Derived `PartialEq` of `InstFormat`, src/instruction.rs:268-429. -/
def InstFormat.eq (a b : InstFormat) : Bool := a.discr == b.discr

/-- Derived `Debug` of `BaseIOpcode`, src/instruction/base_i.rs:8-63. -/
def BaseIOpcode.debug : BaseIOpcode → String
  | .LUI => "LUI"
  | .AUIPC => "AUIPC"
  | .JAL => "JAL"
  | .JALR => "JALR"
  | .BEQ => "BEQ"
  | .BNE => "BNE"
  | .BLT => "BLT"
  | .BGE => "BGE"
  | .BLTU => "BLTU"
  | .BGEU => "BGEU"
  | .LB => "LB"
  | .LH => "LH"
  | .LW => "LW"
  | .LBU => "LBU"
  | .LHU => "LHU"
  | .SB => "SB"
  | .SH => "SH"
  | .SW => "SW"
  | .ADDI => "ADDI"
  | .SLTI => "SLTI"
  | .SLTIU => "SLTIU"
  | .XORI => "XORI"
  | .ORI => "ORI"
  | .ANDI => "ANDI"
  | .SLLI => "SLLI"
  | .SRLI => "SRLI"
  | .SRAI => "SRAI"
  | .ADD => "ADD"
  | .SUB => "SUB"
  | .SLL => "SLL"
  | .SLT => "SLT"
  | .SLTU => "SLTU"
  | .XOR => "XOR"
  | .SRL => "SRL"
  | .SRA => "SRA"
  | .OR => "OR"
  | .AND => "AND"
  | .ECALL => "ECALL"
  | .EBREAK => "EBREAK"
  | .LWU => "LWU"
  | .LD => "LD"
  | .SD => "SD"
  | .ADDIW => "ADDIW"
  | .SLLIW => "SLLIW"
  | .SRLIW => "SRLIW"
  | .SRAIW => "SRAIW"
  | .ADDW => "ADDW"
  | .SUBW => "SUBW"
  | .SLLW => "SLLW"
  | .SRLW => "SRLW"
  | .SRAW => "SRAW"

/-- Discriminants of `BaseIOpcode`, src/instruction/base_i.rs:8-63. -/
def BaseIOpcode.discr : BaseIOpcode → Nat
  | .LUI => 0
  | .AUIPC => 1
  | .JAL => 2
  | .JALR => 3
  | .BEQ => 4
  | .BNE => 5
  | .BLT => 6
  | .BGE => 7
  | .BLTU => 8
  | .BGEU => 9
  | .LB => 10
  | .LH => 11
  | .LW => 12
  | .LBU => 13
  | .LHU => 14
  | .SB => 15
  | .SH => 16
  | .SW => 17
  | .ADDI => 18
  | .SLTI => 19
  | .SLTIU => 20
  | .XORI => 21
  | .ORI => 22
  | .ANDI => 23
  | .SLLI => 24
  | .SRLI => 25
  | .SRAI => 26
  | .ADD => 27
  | .SUB => 28
  | .SLL => 29
  | .SLT => 30
  | .SLTU => 31
  | .XOR => 32
  | .SRL => 33
  | .SRA => 34
  | .OR => 35
  | .AND => 36
  | .ECALL => 37
  | .EBREAK => 38
  | .LWU => 39
  | .LD => 40
  | .SD => 41
  | .ADDIW => 42
  | .SLLIW => 43
  | .SRLIW => 44
  | .SRAIW => 45
  | .ADDW => 46
  | .SUBW => 47
  | .SLLW => 48
  | .SRLW => 49
  | .SRAW => 50

/-- Derived `PartialEq` of `BaseIOpcode`, src/instruction/base_i.rs:8-63. -/
def BaseIOpcode.eq (a b : BaseIOpcode) : Bool := a.discr == b.discr

/-- Derived `Debug` of `MOpcode`, src/instruction/m_extension.rs:8-25. -/
def MOpcode.debug : MOpcode → String
  | .MUL => "MUL"
  | .MULH => "MULH"
  | .MULHSU => "MULHSU"
  | .MULHU => "MULHU"
  | .DIV => "DIV"
  | .DIVU => "DIVU"
  | .REM => "REM"
  | .REMU => "REMU"
  | .MULW => "MULW"
  | .DIVW => "DIVW"
  | .DIVUW => "DIVUW"
  | .REMW => "REMW"
  | .REMUW => "REMUW"

/-- Discriminants of `MOpcode`, src/instruction/m_extension.rs:8-25. -/
def MOpcode.discr : MOpcode → Nat
  | .MUL => 0
  | .MULH => 1
  | .MULHSU => 2
  | .MULHU => 3
  | .DIV => 4
  | .DIVU => 5
  | .REM => 6
  | .REMU => 7
  | .MULW => 8
  | .DIVW => 9
  | .DIVUW => 10
  | .REMW => 11
  | .REMUW => 12

/-- Derived `PartialEq` of `MOpcode`, src/instruction/m_extension.rs:8-25. -/
def MOpcode.eq (a b : MOpcode) : Bool := a.discr == b.discr

/-- Derived `Debug` of `AOpcode`, src/instruction/a_extension.rs:8-34. -/
def AOpcode.debug : AOpcode → String
  | .LR_W => "LR_W"
  | .SC_W => "SC_W"
  | .AMOSWAP_W => "AMOSWAP_W"
  | .AMOADD_W => "AMOADD_W"
  | .AMOXOR_W => "AMOXOR_W"
  | .AMOAND_W => "AMOAND_W"
  | .AMOOR_W => "AMOOR_W"
  | .AMOMIN_W => "AMOMIN_W"
  | .AMOMAX_W => "AMOMAX_W"
  | .AMOMINU_W => "AMOMINU_W"
  | .AMOMAXU_W => "AMOMAXU_W"
  | .LR_D => "LR_D"
  | .SC_D => "SC_D"
  | .AMOSWAP_D => "AMOSWAP_D"
  | .AMOADD_D => "AMOADD_D"
  | .AMOXOR_D => "AMOXOR_D"
  | .AMOAND_D => "AMOAND_D"
  | .AMOOR_D => "AMOOR_D"
  | .AMOMIN_D => "AMOMIN_D"
  | .AMOMAX_D => "AMOMAX_D"
  | .AMOMINU_D => "AMOMINU_D"
  | .AMOMAXU_D => "AMOMAXU_D"

/-- Discriminants of `AOpcode`, src/instruction/a_extension.rs:8-34. -/
def AOpcode.discr : AOpcode → Nat
  | .LR_W => 0
  | .SC_W => 1
  | .AMOSWAP_W => 2
  | .AMOADD_W => 3
  | .AMOXOR_W => 4
  | .AMOAND_W => 5
  | .AMOOR_W => 6
  | .AMOMIN_W => 7
  | .AMOMAX_W => 8
  | .AMOMINU_W => 9
  | .AMOMAXU_W => 10
  | .LR_D => 11
  | .SC_D => 12
  | .AMOSWAP_D => 13
  | .AMOADD_D => 14
  | .AMOXOR_D => 15
  | .AMOAND_D => 16
  | .AMOOR_D => 17
  | .AMOMIN_D => 18
  | .AMOMAX_D => 19
  | .AMOMINU_D => 20
  | .AMOMAXU_D => 21

/-- Derived `PartialEq` of `AOpcode`, src/instruction/a_extension.rs:8-34. -/
def AOpcode.eq (a b : AOpcode) : Bool := a.discr == b.discr

/-- Derived `Debug` of `COpcode`, src/instruction/c_extension.rs:8-46. -/
def COpcode.debug : COpcode → String
  | .ADDI4SPN => "ADDI4SPN"
  | .LW => "LW"
  | .SW => "SW"
  | .NOP => "NOP"
  | .ADDI => "ADDI"
  | .JAL => "JAL"
  | .LI => "LI"
  | .ADDI16SP => "ADDI16SP"
  | .LUI => "LUI"
  | .SRLI => "SRLI"
  | .SRAI => "SRAI"
  | .ANDI => "ANDI"
  | .SUB => "SUB"
  | .XOR => "XOR"
  | .OR => "OR"
  | .AND => "AND"
  | .J => "J"
  | .BEQZ => "BEQZ"
  | .BNEZ => "BNEZ"
  | .SLLI => "SLLI"
  | .LWSP => "LWSP"
  | .JR => "JR"
  | .MV => "MV"
  | .EBREAK => "EBREAK"
  | .JALR => "JALR"
  | .ADD => "ADD"
  | .SWSP => "SWSP"
  | .LD => "LD"
  | .SD => "SD"
  | .ADDIW => "ADDIW"
  | .SUBW => "SUBW"
  | .ADDW => "ADDW"
  | .LDSP => "LDSP"
  | .SDSP => "SDSP"

/-- Discriminants of `COpcode`, src/instruction/c_extension.rs:8-46. -/
def COpcode.discr : COpcode → Nat
  | .ADDI4SPN => 0
  | .LW => 1
  | .SW => 2
  | .NOP => 3
  | .ADDI => 4
  | .JAL => 5
  | .LI => 6
  | .ADDI16SP => 7
  | .LUI => 8
  | .SRLI => 9
  | .SRAI => 10
  | .ANDI => 11
  | .SUB => 12
  | .XOR => 13
  | .OR => 14
  | .AND => 15
  | .J => 16
  | .BEQZ => 17
  | .BNEZ => 18
  | .SLLI => 19
  | .LWSP => 20
  | .JR => 21
  | .MV => 22
  | .EBREAK => 23
  | .JALR => 24
  | .ADD => 25
  | .SWSP => 26
  | .LD => 27
  | .SD => 28
  | .ADDIW => 29
  | .SUBW => 30
  | .ADDW => 31
  | .LDSP => 32
  | .SDSP => 33

/-- Derived `PartialEq` of `COpcode`, src/instruction/c_extension.rs:8-46. -/
def COpcode.eq (a b : COpcode) : Bool := a.discr == b.discr

/-- Derived `Debug` of `ZifenceiOpcode`, src/instruction/zifencei_extension.rs:8-11. -/
def ZifenceiOpcode.debug : ZifenceiOpcode → String
  | .FENCE => "FENCE"

/-- Discriminants of `ZifenceiOpcode`, src/instruction/zifencei_extension.rs:8-11. -/
def ZifenceiOpcode.discr : ZifenceiOpcode → Nat
  | .FENCE => 0

/-- Derived `PartialEq` of `ZifenceiOpcode`, src/instruction/zifencei_extension.rs:8-11. -/
def ZifenceiOpcode.eq (a b : ZifenceiOpcode) : Bool := a.discr == b.discr

/-- Derived `Debug` of `ZicbozOpcode`, src/instruction/zicboz_extension.rs:10-13. -/
def ZicbozOpcode.debug : ZicbozOpcode → String
  | .CBO_ZERO => "CBO_ZERO"

/-- Discriminants of `ZicbozOpcode`, src/instruction/zicboz_extension.rs:10-13. -/
def ZicbozOpcode.discr : ZicbozOpcode → Nat
  | .CBO_ZERO => 0

/-- Derived `PartialEq` of `ZicbozOpcode`, src/instruction/zicboz_extension.rs:10-13. -/
def ZicbozOpcode.eq (a b : ZicbozOpcode) : Bool := a.discr == b.discr

/-- Derived `Debug` of `ZicsrOpcode`, src/instruction/zicsr_extension.rs:8-16. -/
def ZicsrOpcode.debug : ZicsrOpcode → String
  | .CSRRW => "CSRRW"
  | .CSRRS => "CSRRS"
  | .CSRRC => "CSRRC"
  | .CSRRWI => "CSRRWI"
  | .CSRRSI => "CSRRSI"
  | .CSRRCI => "CSRRCI"

/-- Discriminants of `ZicsrOpcode`, src/instruction/zicsr_extension.rs:8-16. -/
def ZicsrOpcode.discr : ZicsrOpcode → Nat
  | .CSRRW => 0
  | .CSRRS => 1
  | .CSRRC => 2
  | .CSRRWI => 3
  | .CSRRSI => 4
  | .CSRRCI => 5

/-- Derived `PartialEq` of `ZicsrOpcode`, src/instruction/zicsr_extension.rs:8-16. -/
def ZicsrOpcode.eq (a b : ZicsrOpcode) : Bool := a.discr == b.discr

/-- Derived `Debug` of `ZicfissOpcode`, src/instruction/zicfiss_extension.rs:8-24. -/
def ZicfissOpcode.debug : ZicfissOpcode → String
  | .SSPUSH => "SSPUSH"
  | .C_SSPUSH => "C_SSPUSH"
  | .SSPOPCHK => "SSPOPCHK"
  | .C_SSPOPCHK => "C_SSPOPCHK"
  | .SSRDP => "SSRDP"
  | .SSAMOSWAP_W => "SSAMOSWAP_W"
  | .SSAMOSWAP_D => "SSAMOSWAP_D"

/-- Discriminants of `ZicfissOpcode`, src/instruction/zicfiss_extension.rs:8-24. -/
def ZicfissOpcode.discr : ZicfissOpcode → Nat
  | .SSPUSH => 0
  | .C_SSPUSH => 1
  | .SSPOPCHK => 2
  | .C_SSPOPCHK => 3
  | .SSRDP => 4
  | .SSAMOSWAP_W => 5
  | .SSAMOSWAP_D => 6

/-- Derived `PartialEq` of `ZicfissOpcode`, src/instruction/zicfiss_extension.rs:8-24. -/
def ZicfissOpcode.eq (a b : ZicfissOpcode) : Bool := a.discr == b.discr

/-- Derived `Debug` of `ZicntrOpcode`, src/instruction/zicntr_extension.rs:8-21. -/
def ZicntrOpcode.debug : ZicntrOpcode → String
  | .RDCYCLE_H => "RDCYCLE_H"
  | .RDTIME_H => "RDTIME_H"
  | .RDINSTRET_H => "RDINSTRET_H"
  | .RDCYCLE => "RDCYCLE"
  | .RDTIME => "RDTIME"
  | .RDINSTRET => "RDINSTRET"

/-- Discriminants of `ZicntrOpcode`, src/instruction/zicntr_extension.rs:8-21. -/
def ZicntrOpcode.discr : ZicntrOpcode → Nat
  | .RDCYCLE_H => 0
  | .RDTIME_H => 1
  | .RDINSTRET_H => 2
  | .RDCYCLE => 3
  | .RDTIME => 4
  | .RDINSTRET => 5

/-- Derived `PartialEq` of `ZicntrOpcode`, src/instruction/zicntr_extension.rs:8-21. -/
def ZicntrOpcode.eq (a b : ZicntrOpcode) : Bool := a.discr == b.discr

/-- Derived `Debug` of `PrivOpcode`, src/instruction/priv_extension.rs:8-14. -/
def PrivOpcode.debug : PrivOpcode → String
  | .MRET => "MRET"
  | .SRET => "SRET"
  | .WFI => "WFI"
  | .SFENCE_VMA => "SFENCE_VMA"

/-- Discriminants of `PrivOpcode`, src/instruction/priv_extension.rs:8-14. -/
def PrivOpcode.discr : PrivOpcode → Nat
  | .MRET => 0
  | .SRET => 1
  | .WFI => 2
  | .SFENCE_VMA => 3

/-- Derived `PartialEq` of `PrivOpcode`, src/instruction/priv_extension.rs:8-14. -/
def PrivOpcode.eq (a b : PrivOpcode) : Bool := a.discr == b.discr

/-- Derived `Debug` of `OpcodeKind`, src/instruction.rs:439-461. -/
def OpcodeKind.debug : OpcodeKind → String
  | .BaseI opc => "BaseI(" ++ opc.debug ++ ")"
  | .M opc => "M(" ++ opc.debug ++ ")"
  | .A opc => "A(" ++ opc.debug ++ ")"
  | .C opc => "C(" ++ opc.debug ++ ")"
  | .Zifencei opc => "Zifencei(" ++ opc.debug ++ ")"
  | .Zicboz opc => "Zicboz(" ++ opc.debug ++ ")"
  | .Zicsr opc => "Zicsr(" ++ opc.debug ++ ")"
  | .Zicfiss opc => "Zicfiss(" ++ opc.debug ++ ")"
  | .Zicntr opc => "Zicntr(" ++ opc.debug ++ ")"
  | .Priv opc => "Priv(" ++ opc.debug ++ ")"

/-- Derived `PartialEq` of `OpcodeKind`, src/instruction.rs:439-461. -/
def OpcodeKind.eq : OpcodeKind → OpcodeKind → Bool
  | .BaseI a, .BaseI b => a.eq b
  | .M a, .M b => a.eq b
  | .A a, .A b => a.eq b
  | .C a, .C b => a.eq b
  | .Zifencei a, .Zifencei b => a.eq b
  | .Zicboz a, .Zicboz b => a.eq b
  | .Zicsr a, .Zicsr b => a.eq b
  | .Zicfiss a, .Zicfiss b => a.eq b
  | .Zicntr a, .Zicntr b => a.eq b
  | .Priv a, .Priv b => a.eq b
  | _, _ => false

/-- `Debug` of an `Option` from core: `None` or `Some(…)`. -/
def debugOption {α : Type} (f : α → String) : Option α → String
  | none => "None"
  | some a => "Some(" ++ f a ++ ")"

/-- `Debug` of a `bool` from core. -/
def debugBool : Bool → String
  | true => "true"
  | false => "false"

/-- `PartialEq` of an `Option` from core. -/
def eqOption {α : Type} [BEq α] : Option α → Option α → Bool
  | none, none => true
  | some a, some b => a == b
  | _, _ => false

/-- Derived `Debug` of `Instruction`, src/instruction.rs:28-44. -/
def Instruction.debug (i : Instruction) : String :=
  "Instruction { opc: " ++ i.opc.debug ++
  ", rd: " ++ debugOption toString i.rd ++
  ", rs1: " ++ debugOption toString i.rs1 ++
  ", rs2: " ++ debugOption toString i.rs2 ++
  ", imm: " ++ debugOption toString i.imm ++
  ", inst_format: " ++ i.instFormat.debug ++
  ", is_compressed: " ++ debugBool i.isCompressed ++ " }"

/-- Derived `PartialEq` of `Instruction`, src/instruction.rs:28-44. -/
def Instruction.eq (a b : Instruction) : Bool :=
  a.opc.eq b.opc && eqOption a.rd b.rd && eqOption a.rs1 b.rs1 && eqOption a.rs2 b.rs2 &&
    eqOption a.imm b.imm && a.instFormat.eq b.instFormat && (a.isCompressed == b.isCompressed)

end Raki
