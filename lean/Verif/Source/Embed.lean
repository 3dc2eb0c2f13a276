import Verif.Source.Eval
import Verif.Model.DecodeUtil
/-!
# The model's enumerations as source values

Generated from /repo/src by tools/source.py; do not edit.
-/

namespace Raki.Source

/-- The source value that a value of the model stands for. -/
class Emb (α : Type) where
  emb : α → Val

export Emb (emb)

/-- `Isa`, constructor by constructor. -/
instance : Emb Isa where
  emb
    | .Rv32 => .variant .Isa .Rv32
    | .Rv64 => .variant .Isa .Rv64

/-- `Extensions`, constructor by constructor. -/
instance : Emb Extensions where
  emb
    | .BaseI => .variant .Extensions .BaseI
    | .M => .variant .Extensions .M
    | .A => .variant .Extensions .A
    | .C => .variant .Extensions .C
    | .Zifencei => .variant .Extensions .Zifencei
    | .Zicboz => .variant .Extensions .Zicboz
    | .Zicsr => .variant .Extensions .Zicsr
    | .Zicfiss => .variant .Extensions .Zicfiss
    | .Zicntr => .variant .Extensions .Zicntr
    | .Priv => .variant .Extensions .Priv

/-- `DecodingError`, constructor by constructor. -/
instance : Emb DecodingError where
  emb
    | .Not16BitInst => .variant .DecodingError .Not16BitInst
    | .Not32BitInst => .variant .DecodingError .Not32BitInst
    | .InvalidFunct3 => .variant .DecodingError .InvalidFunct3
    | .InvalidFunct5 => .variant .DecodingError .InvalidFunct5
    | .InvalidFunct6 => .variant .DecodingError .InvalidFunct6
    | .InvalidFunct7 => .variant .DecodingError .InvalidFunct7
    | .InvalidOpcode => .variant .DecodingError .InvalidOpcode
    | .UnknownExtension => .variant .DecodingError .UnknownExtension
    | .IllegalInstruction => .variant .DecodingError .IllegalInstruction
    | .OnlyRv64Inst => .variant .DecodingError .OnlyRv64Inst

/-- `InstFormat`, constructor by constructor. -/
instance : Emb InstFormat where
  emb
    | .RFormat => .variant .InstFormat .RFormat
    | .RShamtFormat => .variant .InstFormat .RShamtFormat
    | .IFormat => .variant .InstFormat .IFormat
    | .SFormat => .variant .InstFormat .SFormat
    | .BFormat => .variant .InstFormat .BFormat
    | .UFormat => .variant .InstFormat .UFormat
    | .JFormat => .variant .InstFormat .JFormat
    | .CrFormat => .variant .InstFormat .CrFormat
    | .CiFormat => .variant .InstFormat .CiFormat
    | .CssFormat => .variant .InstFormat .CssFormat
    | .CiwFormat => .variant .InstFormat .CiwFormat
    | .ClFormat => .variant .InstFormat .ClFormat
    | .CsFormat => .variant .InstFormat .CsFormat
    | .CaFormat => .variant .InstFormat .CaFormat
    | .CbFormat => .variant .InstFormat .CbFormat
    | .CjFormat => .variant .InstFormat .CjFormat
    | .CsrFormat => .variant .InstFormat .CsrFormat
    | .CsrUiFormat => .variant .InstFormat .CsrUiFormat
    | .MFormat => .variant .InstFormat .MFormat
    | .AFormat => .variant .InstFormat .AFormat
    | .ALrFormat => .variant .InstFormat .ALrFormat
    | .NoOperand => .variant .InstFormat .NoOperand
    | .OnlyRd => .variant .InstFormat .OnlyRd
    | .OnlyRs1 => .variant .InstFormat .OnlyRs1
    | .OnlyRs2 => .variant .InstFormat .OnlyRs2

/-- `AOpcode`, constructor by constructor. -/
instance : Emb AOpcode where
  emb
    | .LR_W => .variant .AOpcode .LR_W
    | .SC_W => .variant .AOpcode .SC_W
    | .AMOSWAP_W => .variant .AOpcode .AMOSWAP_W
    | .AMOADD_W => .variant .AOpcode .AMOADD_W
    | .AMOXOR_W => .variant .AOpcode .AMOXOR_W
    | .AMOAND_W => .variant .AOpcode .AMOAND_W
    | .AMOOR_W => .variant .AOpcode .AMOOR_W
    | .AMOMIN_W => .variant .AOpcode .AMOMIN_W
    | .AMOMAX_W => .variant .AOpcode .AMOMAX_W
    | .AMOMINU_W => .variant .AOpcode .AMOMINU_W
    | .AMOMAXU_W => .variant .AOpcode .AMOMAXU_W
    | .LR_D => .variant .AOpcode .LR_D
    | .SC_D => .variant .AOpcode .SC_D
    | .AMOSWAP_D => .variant .AOpcode .AMOSWAP_D
    | .AMOADD_D => .variant .AOpcode .AMOADD_D
    | .AMOXOR_D => .variant .AOpcode .AMOXOR_D
    | .AMOAND_D => .variant .AOpcode .AMOAND_D
    | .AMOOR_D => .variant .AOpcode .AMOOR_D
    | .AMOMIN_D => .variant .AOpcode .AMOMIN_D
    | .AMOMAX_D => .variant .AOpcode .AMOMAX_D
    | .AMOMINU_D => .variant .AOpcode .AMOMINU_D
    | .AMOMAXU_D => .variant .AOpcode .AMOMAXU_D

/-- `BaseIOpcode`, constructor by constructor. -/
instance : Emb BaseIOpcode where
  emb
    | .LUI => .variant .BaseIOpcode .LUI
    | .AUIPC => .variant .BaseIOpcode .AUIPC
    | .JAL => .variant .BaseIOpcode .JAL
    | .JALR => .variant .BaseIOpcode .JALR
    | .BEQ => .variant .BaseIOpcode .BEQ
    | .BNE => .variant .BaseIOpcode .BNE
    | .BLT => .variant .BaseIOpcode .BLT
    | .BGE => .variant .BaseIOpcode .BGE
    | .BLTU => .variant .BaseIOpcode .BLTU
    | .BGEU => .variant .BaseIOpcode .BGEU
    | .LB => .variant .BaseIOpcode .LB
    | .LH => .variant .BaseIOpcode .LH
    | .LW => .variant .BaseIOpcode .LW
    | .LBU => .variant .BaseIOpcode .LBU
    | .LHU => .variant .BaseIOpcode .LHU
    | .SB => .variant .BaseIOpcode .SB
    | .SH => .variant .BaseIOpcode .SH
    | .SW => .variant .BaseIOpcode .SW
    | .ADDI => .variant .BaseIOpcode .ADDI
    | .SLTI => .variant .BaseIOpcode .SLTI
    | .SLTIU => .variant .BaseIOpcode .SLTIU
    | .XORI => .variant .BaseIOpcode .XORI
    | .ORI => .variant .BaseIOpcode .ORI
    | .ANDI => .variant .BaseIOpcode .ANDI
    | .SLLI => .variant .BaseIOpcode .SLLI
    | .SRLI => .variant .BaseIOpcode .SRLI
    | .SRAI => .variant .BaseIOpcode .SRAI
    | .ADD => .variant .BaseIOpcode .ADD
    | .SUB => .variant .BaseIOpcode .SUB
    | .SLL => .variant .BaseIOpcode .SLL
    | .SLT => .variant .BaseIOpcode .SLT
    | .SLTU => .variant .BaseIOpcode .SLTU
    | .XOR => .variant .BaseIOpcode .XOR
    | .SRL => .variant .BaseIOpcode .SRL
    | .SRA => .variant .BaseIOpcode .SRA
    | .OR => .variant .BaseIOpcode .OR
    | .AND => .variant .BaseIOpcode .AND
    | .ECALL => .variant .BaseIOpcode .ECALL
    | .EBREAK => .variant .BaseIOpcode .EBREAK
    | .LWU => .variant .BaseIOpcode .LWU
    | .LD => .variant .BaseIOpcode .LD
    | .SD => .variant .BaseIOpcode .SD
    | .ADDIW => .variant .BaseIOpcode .ADDIW
    | .SLLIW => .variant .BaseIOpcode .SLLIW
    | .SRLIW => .variant .BaseIOpcode .SRLIW
    | .SRAIW => .variant .BaseIOpcode .SRAIW
    | .ADDW => .variant .BaseIOpcode .ADDW
    | .SUBW => .variant .BaseIOpcode .SUBW
    | .SLLW => .variant .BaseIOpcode .SLLW
    | .SRLW => .variant .BaseIOpcode .SRLW
    | .SRAW => .variant .BaseIOpcode .SRAW

/-- `COpcode`, constructor by constructor. -/
instance : Emb COpcode where
  emb
    | .ADDI4SPN => .variant .COpcode .ADDI4SPN
    | .LW => .variant .COpcode .LW
    | .SW => .variant .COpcode .SW
    | .NOP => .variant .COpcode .NOP
    | .ADDI => .variant .COpcode .ADDI
    | .JAL => .variant .COpcode .JAL
    | .LI => .variant .COpcode .LI
    | .ADDI16SP => .variant .COpcode .ADDI16SP
    | .LUI => .variant .COpcode .LUI
    | .SRLI => .variant .COpcode .SRLI
    | .SRAI => .variant .COpcode .SRAI
    | .ANDI => .variant .COpcode .ANDI
    | .SUB => .variant .COpcode .SUB
    | .XOR => .variant .COpcode .XOR
    | .OR => .variant .COpcode .OR
    | .AND => .variant .COpcode .AND
    | .J => .variant .COpcode .J
    | .BEQZ => .variant .COpcode .BEQZ
    | .BNEZ => .variant .COpcode .BNEZ
    | .SLLI => .variant .COpcode .SLLI
    | .LWSP => .variant .COpcode .LWSP
    | .JR => .variant .COpcode .JR
    | .MV => .variant .COpcode .MV
    | .EBREAK => .variant .COpcode .EBREAK
    | .JALR => .variant .COpcode .JALR
    | .ADD => .variant .COpcode .ADD
    | .SWSP => .variant .COpcode .SWSP
    | .LD => .variant .COpcode .LD
    | .SD => .variant .COpcode .SD
    | .ADDIW => .variant .COpcode .ADDIW
    | .SUBW => .variant .COpcode .SUBW
    | .ADDW => .variant .COpcode .ADDW
    | .LDSP => .variant .COpcode .LDSP
    | .SDSP => .variant .COpcode .SDSP

/-- `MOpcode`, constructor by constructor. -/
instance : Emb MOpcode where
  emb
    | .MUL => .variant .MOpcode .MUL
    | .MULH => .variant .MOpcode .MULH
    | .MULHSU => .variant .MOpcode .MULHSU
    | .MULHU => .variant .MOpcode .MULHU
    | .DIV => .variant .MOpcode .DIV
    | .DIVU => .variant .MOpcode .DIVU
    | .REM => .variant .MOpcode .REM
    | .REMU => .variant .MOpcode .REMU
    | .MULW => .variant .MOpcode .MULW
    | .DIVW => .variant .MOpcode .DIVW
    | .DIVUW => .variant .MOpcode .DIVUW
    | .REMW => .variant .MOpcode .REMW
    | .REMUW => .variant .MOpcode .REMUW

/-- `PrivOpcode`, constructor by constructor. -/
instance : Emb PrivOpcode where
  emb
    | .MRET => .variant .PrivOpcode .MRET
    | .SRET => .variant .PrivOpcode .SRET
    | .WFI => .variant .PrivOpcode .WFI
    | .SFENCE_VMA => .variant .PrivOpcode .SFENCE_VMA

/-- `ZicbozOpcode`, constructor by constructor. -/
instance : Emb ZicbozOpcode where
  emb
    | .CBO_ZERO => .variant .ZicbozOpcode .CBO_ZERO

/-- `ZicfissOpcode`, constructor by constructor. -/
instance : Emb ZicfissOpcode where
  emb
    | .SSPUSH => .variant .ZicfissOpcode .SSPUSH
    | .C_SSPUSH => .variant .ZicfissOpcode .C_SSPUSH
    | .SSPOPCHK => .variant .ZicfissOpcode .SSPOPCHK
    | .C_SSPOPCHK => .variant .ZicfissOpcode .C_SSPOPCHK
    | .SSRDP => .variant .ZicfissOpcode .SSRDP
    | .SSAMOSWAP_W => .variant .ZicfissOpcode .SSAMOSWAP_W
    | .SSAMOSWAP_D => .variant .ZicfissOpcode .SSAMOSWAP_D

/-- `ZicntrOpcode`, constructor by constructor. -/
instance : Emb ZicntrOpcode where
  emb
    | .RDCYCLE_H => .variant .ZicntrOpcode .RDCYCLE_H
    | .RDTIME_H => .variant .ZicntrOpcode .RDTIME_H
    | .RDINSTRET_H => .variant .ZicntrOpcode .RDINSTRET_H
    | .RDCYCLE => .variant .ZicntrOpcode .RDCYCLE
    | .RDTIME => .variant .ZicntrOpcode .RDTIME
    | .RDINSTRET => .variant .ZicntrOpcode .RDINSTRET

/-- `ZicsrOpcode`, constructor by constructor. -/
instance : Emb ZicsrOpcode where
  emb
    | .CSRRW => .variant .ZicsrOpcode .CSRRW
    | .CSRRS => .variant .ZicsrOpcode .CSRRS
    | .CSRRC => .variant .ZicsrOpcode .CSRRC
    | .CSRRWI => .variant .ZicsrOpcode .CSRRWI
    | .CSRRSI => .variant .ZicsrOpcode .CSRRSI
    | .CSRRCI => .variant .ZicsrOpcode .CSRRCI

/-- `ZifenceiOpcode`, constructor by constructor. -/
instance : Emb ZifenceiOpcode where
  emb
    | .FENCE => .variant .ZifenceiOpcode .FENCE

/-- `OpcodeKind`, constructor by constructor. -/
instance : Emb OpcodeKind where
  emb
    | .BaseI x => .variantOf .OpcodeKind .BaseI (emb x)
    | .M x => .variantOf .OpcodeKind .M (emb x)
    | .A x => .variantOf .OpcodeKind .A (emb x)
    | .C x => .variantOf .OpcodeKind .C (emb x)
    | .Zifencei x => .variantOf .OpcodeKind .Zifencei (emb x)
    | .Zicboz x => .variantOf .OpcodeKind .Zicboz (emb x)
    | .Zicsr x => .variantOf .OpcodeKind .Zicsr (emb x)
    | .Zicfiss x => .variantOf .OpcodeKind .Zicfiss (emb x)
    | .Zicntr x => .variantOf .OpcodeKind .Zicntr (emb x)
    | .Priv x => .variantOf .OpcodeKind .Priv (emb x)

end Raki.Source
