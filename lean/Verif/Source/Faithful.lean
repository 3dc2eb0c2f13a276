import Verif.Source.Relate
/-!
# Distinct values of the model are distinct source values

Generated from /repo/src by tools/source.py; do not edit.
-/

namespace Raki.Source

theorem inj_of_left {α : Type} [Emb α] (g : Val → Option α) (h : ∀ a : α, g (emb a) = some a) (a b : α)
    (e : emb a = emb b) : a = b := by
  have h1 := h a
  rw [e, h b] at h1
  exact (Option.some.inj h1).symm

/-- Reads a `Isa` back. -/
def unIsa : Val → Option Isa
  | .variant _ .Rv32 => some .Rv32
  | .variant _ .Rv64 => some .Rv64
  | _ => none

theorem emb_inj_Isa : ∀ a b : Isa, emb a = emb b → a = b :=
  inj_of_left unIsa (by intro a; cases a <;> rfl)

/-- Reads a `Extensions` back. -/
def unExtensions : Val → Option Extensions
  | .variant _ .BaseI => some .BaseI
  | .variant _ .M => some .M
  | .variant _ .A => some .A
  | .variant _ .C => some .C
  | .variant _ .Zifencei => some .Zifencei
  | .variant _ .Zicboz => some .Zicboz
  | .variant _ .Zicsr => some .Zicsr
  | .variant _ .Zicfiss => some .Zicfiss
  | .variant _ .Zicntr => some .Zicntr
  | .variant _ .Priv => some .Priv
  | _ => none

theorem emb_inj_Extensions : ∀ a b : Extensions, emb a = emb b → a = b :=
  inj_of_left unExtensions (by intro a; cases a <;> rfl)

/-- Reads a `DecodingError` back. -/
def unDecodingError : Val → Option DecodingError
  | .variant _ .Not16BitInst => some .Not16BitInst
  | .variant _ .Not32BitInst => some .Not32BitInst
  | .variant _ .InvalidFunct3 => some .InvalidFunct3
  | .variant _ .InvalidFunct5 => some .InvalidFunct5
  | .variant _ .InvalidFunct6 => some .InvalidFunct6
  | .variant _ .InvalidFunct7 => some .InvalidFunct7
  | .variant _ .InvalidOpcode => some .InvalidOpcode
  | .variant _ .UnknownExtension => some .UnknownExtension
  | .variant _ .IllegalInstruction => some .IllegalInstruction
  | .variant _ .OnlyRv64Inst => some .OnlyRv64Inst
  | _ => none

theorem emb_inj_DecodingError : ∀ a b : DecodingError, emb a = emb b → a = b :=
  inj_of_left unDecodingError (by intro a; cases a <;> rfl)

/-- Reads a `InstFormat` back. -/
def unInstFormat : Val → Option InstFormat
  | .variant _ .RFormat => some .RFormat
  | .variant _ .RShamtFormat => some .RShamtFormat
  | .variant _ .IFormat => some .IFormat
  | .variant _ .SFormat => some .SFormat
  | .variant _ .BFormat => some .BFormat
  | .variant _ .UFormat => some .UFormat
  | .variant _ .JFormat => some .JFormat
  | .variant _ .CrFormat => some .CrFormat
  | .variant _ .CiFormat => some .CiFormat
  | .variant _ .CssFormat => some .CssFormat
  | .variant _ .CiwFormat => some .CiwFormat
  | .variant _ .ClFormat => some .ClFormat
  | .variant _ .CsFormat => some .CsFormat
  | .variant _ .CaFormat => some .CaFormat
  | .variant _ .CbFormat => some .CbFormat
  | .variant _ .CjFormat => some .CjFormat
  | .variant _ .CsrFormat => some .CsrFormat
  | .variant _ .CsrUiFormat => some .CsrUiFormat
  | .variant _ .MFormat => some .MFormat
  | .variant _ .AFormat => some .AFormat
  | .variant _ .ALrFormat => some .ALrFormat
  | .variant _ .NoOperand => some .NoOperand
  | .variant _ .OnlyRd => some .OnlyRd
  | .variant _ .OnlyRs1 => some .OnlyRs1
  | .variant _ .OnlyRs2 => some .OnlyRs2
  | _ => none

theorem emb_inj_InstFormat : ∀ a b : InstFormat, emb a = emb b → a = b :=
  inj_of_left unInstFormat (by intro a; cases a <;> rfl)

/-- Reads a `AOpcode` back. -/
def unAOpcode : Val → Option AOpcode
  | .variant _ .LR_W => some .LR_W
  | .variant _ .SC_W => some .SC_W
  | .variant _ .AMOSWAP_W => some .AMOSWAP_W
  | .variant _ .AMOADD_W => some .AMOADD_W
  | .variant _ .AMOXOR_W => some .AMOXOR_W
  | .variant _ .AMOAND_W => some .AMOAND_W
  | .variant _ .AMOOR_W => some .AMOOR_W
  | .variant _ .AMOMIN_W => some .AMOMIN_W
  | .variant _ .AMOMAX_W => some .AMOMAX_W
  | .variant _ .AMOMINU_W => some .AMOMINU_W
  | .variant _ .AMOMAXU_W => some .AMOMAXU_W
  | .variant _ .LR_D => some .LR_D
  | .variant _ .SC_D => some .SC_D
  | .variant _ .AMOSWAP_D => some .AMOSWAP_D
  | .variant _ .AMOADD_D => some .AMOADD_D
  | .variant _ .AMOXOR_D => some .AMOXOR_D
  | .variant _ .AMOAND_D => some .AMOAND_D
  | .variant _ .AMOOR_D => some .AMOOR_D
  | .variant _ .AMOMIN_D => some .AMOMIN_D
  | .variant _ .AMOMAX_D => some .AMOMAX_D
  | .variant _ .AMOMINU_D => some .AMOMINU_D
  | .variant _ .AMOMAXU_D => some .AMOMAXU_D
  | _ => none

theorem emb_inj_AOpcode : ∀ a b : AOpcode, emb a = emb b → a = b :=
  inj_of_left unAOpcode (by intro a; cases a <;> rfl)

/-- Reads a `BaseIOpcode` back. -/
def unBaseIOpcode : Val → Option BaseIOpcode
  | .variant _ .LUI => some .LUI
  | .variant _ .AUIPC => some .AUIPC
  | .variant _ .JAL => some .JAL
  | .variant _ .JALR => some .JALR
  | .variant _ .BEQ => some .BEQ
  | .variant _ .BNE => some .BNE
  | .variant _ .BLT => some .BLT
  | .variant _ .BGE => some .BGE
  | .variant _ .BLTU => some .BLTU
  | .variant _ .BGEU => some .BGEU
  | .variant _ .LB => some .LB
  | .variant _ .LH => some .LH
  | .variant _ .LW => some .LW
  | .variant _ .LBU => some .LBU
  | .variant _ .LHU => some .LHU
  | .variant _ .SB => some .SB
  | .variant _ .SH => some .SH
  | .variant _ .SW => some .SW
  | .variant _ .ADDI => some .ADDI
  | .variant _ .SLTI => some .SLTI
  | .variant _ .SLTIU => some .SLTIU
  | .variant _ .XORI => some .XORI
  | .variant _ .ORI => some .ORI
  | .variant _ .ANDI => some .ANDI
  | .variant _ .SLLI => some .SLLI
  | .variant _ .SRLI => some .SRLI
  | .variant _ .SRAI => some .SRAI
  | .variant _ .ADD => some .ADD
  | .variant _ .SUB => some .SUB
  | .variant _ .SLL => some .SLL
  | .variant _ .SLT => some .SLT
  | .variant _ .SLTU => some .SLTU
  | .variant _ .XOR => some .XOR
  | .variant _ .SRL => some .SRL
  | .variant _ .SRA => some .SRA
  | .variant _ .OR => some .OR
  | .variant _ .AND => some .AND
  | .variant _ .ECALL => some .ECALL
  | .variant _ .EBREAK => some .EBREAK
  | .variant _ .LWU => some .LWU
  | .variant _ .LD => some .LD
  | .variant _ .SD => some .SD
  | .variant _ .ADDIW => some .ADDIW
  | .variant _ .SLLIW => some .SLLIW
  | .variant _ .SRLIW => some .SRLIW
  | .variant _ .SRAIW => some .SRAIW
  | .variant _ .ADDW => some .ADDW
  | .variant _ .SUBW => some .SUBW
  | .variant _ .SLLW => some .SLLW
  | .variant _ .SRLW => some .SRLW
  | .variant _ .SRAW => some .SRAW
  | _ => none

theorem emb_inj_BaseIOpcode : ∀ a b : BaseIOpcode, emb a = emb b → a = b :=
  inj_of_left unBaseIOpcode (by intro a; cases a <;> rfl)

/-- Reads a `COpcode` back. -/
def unCOpcode : Val → Option COpcode
  | .variant _ .ADDI4SPN => some .ADDI4SPN
  | .variant _ .LW => some .LW
  | .variant _ .SW => some .SW
  | .variant _ .NOP => some .NOP
  | .variant _ .ADDI => some .ADDI
  | .variant _ .JAL => some .JAL
  | .variant _ .LI => some .LI
  | .variant _ .ADDI16SP => some .ADDI16SP
  | .variant _ .LUI => some .LUI
  | .variant _ .SRLI => some .SRLI
  | .variant _ .SRAI => some .SRAI
  | .variant _ .ANDI => some .ANDI
  | .variant _ .SUB => some .SUB
  | .variant _ .XOR => some .XOR
  | .variant _ .OR => some .OR
  | .variant _ .AND => some .AND
  | .variant _ .J => some .J
  | .variant _ .BEQZ => some .BEQZ
  | .variant _ .BNEZ => some .BNEZ
  | .variant _ .SLLI => some .SLLI
  | .variant _ .LWSP => some .LWSP
  | .variant _ .JR => some .JR
  | .variant _ .MV => some .MV
  | .variant _ .EBREAK => some .EBREAK
  | .variant _ .JALR => some .JALR
  | .variant _ .ADD => some .ADD
  | .variant _ .SWSP => some .SWSP
  | .variant _ .LD => some .LD
  | .variant _ .SD => some .SD
  | .variant _ .ADDIW => some .ADDIW
  | .variant _ .SUBW => some .SUBW
  | .variant _ .ADDW => some .ADDW
  | .variant _ .LDSP => some .LDSP
  | .variant _ .SDSP => some .SDSP
  | _ => none

theorem emb_inj_COpcode : ∀ a b : COpcode, emb a = emb b → a = b :=
  inj_of_left unCOpcode (by intro a; cases a <;> rfl)

/-- Reads a `MOpcode` back. -/
def unMOpcode : Val → Option MOpcode
  | .variant _ .MUL => some .MUL
  | .variant _ .MULH => some .MULH
  | .variant _ .MULHSU => some .MULHSU
  | .variant _ .MULHU => some .MULHU
  | .variant _ .DIV => some .DIV
  | .variant _ .DIVU => some .DIVU
  | .variant _ .REM => some .REM
  | .variant _ .REMU => some .REMU
  | .variant _ .MULW => some .MULW
  | .variant _ .DIVW => some .DIVW
  | .variant _ .DIVUW => some .DIVUW
  | .variant _ .REMW => some .REMW
  | .variant _ .REMUW => some .REMUW
  | _ => none

theorem emb_inj_MOpcode : ∀ a b : MOpcode, emb a = emb b → a = b :=
  inj_of_left unMOpcode (by intro a; cases a <;> rfl)

/-- Reads a `PrivOpcode` back. -/
def unPrivOpcode : Val → Option PrivOpcode
  | .variant _ .MRET => some .MRET
  | .variant _ .SRET => some .SRET
  | .variant _ .WFI => some .WFI
  | .variant _ .SFENCE_VMA => some .SFENCE_VMA
  | _ => none

theorem emb_inj_PrivOpcode : ∀ a b : PrivOpcode, emb a = emb b → a = b :=
  inj_of_left unPrivOpcode (by intro a; cases a <;> rfl)

/-- Reads a `ZicbozOpcode` back. -/
def unZicbozOpcode : Val → Option ZicbozOpcode
  | .variant _ .CBO_ZERO => some .CBO_ZERO
  | _ => none

theorem emb_inj_ZicbozOpcode : ∀ a b : ZicbozOpcode, emb a = emb b → a = b :=
  inj_of_left unZicbozOpcode (by intro a; cases a <;> rfl)

/-- Reads a `ZicfissOpcode` back. -/
def unZicfissOpcode : Val → Option ZicfissOpcode
  | .variant _ .SSPUSH => some .SSPUSH
  | .variant _ .C_SSPUSH => some .C_SSPUSH
  | .variant _ .SSPOPCHK => some .SSPOPCHK
  | .variant _ .C_SSPOPCHK => some .C_SSPOPCHK
  | .variant _ .SSRDP => some .SSRDP
  | .variant _ .SSAMOSWAP_W => some .SSAMOSWAP_W
  | .variant _ .SSAMOSWAP_D => some .SSAMOSWAP_D
  | _ => none

theorem emb_inj_ZicfissOpcode : ∀ a b : ZicfissOpcode, emb a = emb b → a = b :=
  inj_of_left unZicfissOpcode (by intro a; cases a <;> rfl)

/-- Reads a `ZicntrOpcode` back. -/
def unZicntrOpcode : Val → Option ZicntrOpcode
  | .variant _ .RDCYCLE_H => some .RDCYCLE_H
  | .variant _ .RDTIME_H => some .RDTIME_H
  | .variant _ .RDINSTRET_H => some .RDINSTRET_H
  | .variant _ .RDCYCLE => some .RDCYCLE
  | .variant _ .RDTIME => some .RDTIME
  | .variant _ .RDINSTRET => some .RDINSTRET
  | _ => none

theorem emb_inj_ZicntrOpcode : ∀ a b : ZicntrOpcode, emb a = emb b → a = b :=
  inj_of_left unZicntrOpcode (by intro a; cases a <;> rfl)

/-- Reads a `ZicsrOpcode` back. -/
def unZicsrOpcode : Val → Option ZicsrOpcode
  | .variant _ .CSRRW => some .CSRRW
  | .variant _ .CSRRS => some .CSRRS
  | .variant _ .CSRRC => some .CSRRC
  | .variant _ .CSRRWI => some .CSRRWI
  | .variant _ .CSRRSI => some .CSRRSI
  | .variant _ .CSRRCI => some .CSRRCI
  | _ => none

theorem emb_inj_ZicsrOpcode : ∀ a b : ZicsrOpcode, emb a = emb b → a = b :=
  inj_of_left unZicsrOpcode (by intro a; cases a <;> rfl)

/-- Reads a `ZifenceiOpcode` back. -/
def unZifenceiOpcode : Val → Option ZifenceiOpcode
  | .variant _ .FENCE => some .FENCE
  | _ => none

theorem emb_inj_ZifenceiOpcode : ∀ a b : ZifenceiOpcode, emb a = emb b → a = b :=
  inj_of_left unZifenceiOpcode (by intro a; cases a <;> rfl)

theorem emb_inj_OpcodeKind (a b : OpcodeKind) (e : emb a = emb b) : a = b := by
  cases a <;> cases b <;> first
    | exact congrArg _ (emb_inj_BaseIOpcode _ _ (Val.variantOf.inj e).2.2)
    | exact congrArg _ (emb_inj_MOpcode _ _ (Val.variantOf.inj e).2.2)
    | exact congrArg _ (emb_inj_AOpcode _ _ (Val.variantOf.inj e).2.2)
    | exact congrArg _ (emb_inj_COpcode _ _ (Val.variantOf.inj e).2.2)
    | exact congrArg _ (emb_inj_ZifenceiOpcode _ _ (Val.variantOf.inj e).2.2)
    | exact congrArg _ (emb_inj_ZicbozOpcode _ _ (Val.variantOf.inj e).2.2)
    | exact congrArg _ (emb_inj_ZicsrOpcode _ _ (Val.variantOf.inj e).2.2)
    | exact congrArg _ (emb_inj_ZicfissOpcode _ _ (Val.variantOf.inj e).2.2)
    | exact congrArg _ (emb_inj_ZicntrOpcode _ _ (Val.variantOf.inj e).2.2)
    | exact congrArg _ (emb_inj_PrivOpcode _ _ (Val.variantOf.inj e).2.2)
    | exact nomatch (Val.variantOf.inj e).2.1

end Raki.Source
