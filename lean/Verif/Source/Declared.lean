import Verif.Source.Relate
import Verif.Source.Program
/-!
# The declared types against the model's

Generated from /repo/src by tools/source.py; do not edit.
-/

namespace Raki.Source

/-- The variants a type is declared with. -/
def variantsOf (t : Id) : List (Id × Option Id) :=
  types.flatMap fun d => match decide (d.name = t), d.shape with
    | true, .enum vs => vs
    | _, _ => []

/-- The fields a type is declared with. -/
def fieldsOf (t : Id) : List (Id × Ty) :=
  types.flatMap fun d => match decide (d.name = t), d.shape with
    | true, .struct fs => fs
    | _, _ => []

/-- `α` has exactly the values that the variants of `t` declare, none of which has an argument. -/
def SameEnum (t : Id) (α : Type) [Emb α] : Prop :=
  ∃ l : List α, (∀ x, x ∈ l) ∧ (variantsOf t).map (fun v => (Val.variant t v.1, v.2)) = l.map (fun x => (emb x, none)) ∧
    ((variantsOf t).map (·.1)).Nodup

theorem same_Isa : SameEnum .Isa Isa :=
  ⟨[.Rv32, .Rv64],
    by intro x; cases x <;> simp, rfl, by decide⟩

theorem same_Extensions : SameEnum .Extensions Extensions :=
  ⟨[.BaseI, .M, .A, .C, .Zifencei, .Zicboz, .Zicsr, .Zicfiss, .Zicntr, .Priv],
    by intro x; cases x <;> simp, rfl, by decide⟩

theorem same_DecodingError : SameEnum .DecodingError DecodingError :=
  ⟨[.Not16BitInst, .Not32BitInst, .InvalidFunct3, .InvalidFunct5, .InvalidFunct6, .InvalidFunct7,
  .InvalidOpcode, .UnknownExtension, .IllegalInstruction, .OnlyRv64Inst],
    by intro x; cases x <;> simp, rfl, by decide⟩

theorem same_InstFormat : SameEnum .InstFormat InstFormat :=
  ⟨[.RFormat, .RShamtFormat, .IFormat, .SFormat, .BFormat, .UFormat, .JFormat, .CrFormat, .CiFormat,
  .CssFormat, .CiwFormat, .ClFormat, .CsFormat, .CaFormat, .CbFormat, .CjFormat, .CsrFormat, .CsrUiFormat,
  .MFormat, .AFormat, .ALrFormat, .NoOperand, .OnlyRd, .OnlyRs1, .OnlyRs2],
    by intro x; cases x <;> simp, rfl, by decide⟩

theorem same_AOpcode : SameEnum .AOpcode AOpcode :=
  ⟨[.LR_W, .SC_W, .AMOSWAP_W, .AMOADD_W, .AMOXOR_W, .AMOAND_W, .AMOOR_W, .AMOMIN_W, .AMOMAX_W, .AMOMINU_W,
  .AMOMAXU_W, .LR_D, .SC_D, .AMOSWAP_D, .AMOADD_D, .AMOXOR_D, .AMOAND_D, .AMOOR_D, .AMOMIN_D, .AMOMAX_D,
  .AMOMINU_D, .AMOMAXU_D],
    by intro x; cases x <;> simp, rfl, by decide⟩

theorem same_BaseIOpcode : SameEnum .BaseIOpcode BaseIOpcode :=
  ⟨[.LUI, .AUIPC, .JAL, .JALR, .BEQ, .BNE, .BLT, .BGE, .BLTU, .BGEU, .LB, .LH, .LW, .LBU, .LHU, .SB, .SH,
  .SW, .ADDI, .SLTI, .SLTIU, .XORI, .ORI, .ANDI, .SLLI, .SRLI, .SRAI, .ADD, .SUB, .SLL, .SLT, .SLTU, .XOR,
  .SRL, .SRA, .OR, .AND, .ECALL, .EBREAK, .LWU, .LD, .SD, .ADDIW, .SLLIW, .SRLIW, .SRAIW, .ADDW, .SUBW,
  .SLLW, .SRLW, .SRAW],
    by intro x; cases x <;> simp, rfl, by decide⟩

theorem same_COpcode : SameEnum .COpcode COpcode :=
  ⟨[.ADDI4SPN, .LW, .SW, .NOP, .ADDI, .JAL, .LI, .ADDI16SP, .LUI, .SRLI, .SRAI, .ANDI, .SUB, .XOR, .OR,
  .AND, .J, .BEQZ, .BNEZ, .SLLI, .LWSP, .JR, .MV, .EBREAK, .JALR, .ADD, .SWSP, .LD, .SD, .ADDIW, .SUBW,
  .ADDW, .LDSP, .SDSP],
    by intro x; cases x <;> simp, rfl, by decide⟩

theorem same_MOpcode : SameEnum .MOpcode MOpcode :=
  ⟨[.MUL, .MULH, .MULHSU, .MULHU, .DIV, .DIVU, .REM, .REMU, .MULW, .DIVW, .DIVUW, .REMW, .REMUW],
    by intro x; cases x <;> simp, rfl, by decide⟩

theorem same_PrivOpcode : SameEnum .PrivOpcode PrivOpcode :=
  ⟨[.MRET, .SRET, .WFI, .SFENCE_VMA],
    by intro x; cases x <;> simp, rfl, by decide⟩

theorem same_ZicbozOpcode : SameEnum .ZicbozOpcode ZicbozOpcode :=
  ⟨[.CBO_ZERO],
    by intro x; cases x <;> simp, rfl, by decide⟩

theorem same_ZicfissOpcode : SameEnum .ZicfissOpcode ZicfissOpcode :=
  ⟨[.SSPUSH, .C_SSPUSH, .SSPOPCHK, .C_SSPOPCHK, .SSRDP, .SSAMOSWAP_W, .SSAMOSWAP_D],
    by intro x; cases x <;> simp, rfl, by decide⟩

theorem same_ZicntrOpcode : SameEnum .ZicntrOpcode ZicntrOpcode :=
  ⟨[.RDCYCLE_H, .RDTIME_H, .RDINSTRET_H, .RDCYCLE, .RDTIME, .RDINSTRET],
    by intro x; cases x <;> simp, rfl, by decide⟩

theorem same_ZicsrOpcode : SameEnum .ZicsrOpcode ZicsrOpcode :=
  ⟨[.CSRRW, .CSRRS, .CSRRC, .CSRRWI, .CSRRSI, .CSRRCI],
    by intro x; cases x <;> simp, rfl, by decide⟩

theorem same_ZifenceiOpcode : SameEnum .ZifenceiOpcode ZifenceiOpcode :=
  ⟨[.FENCE],
    by intro x; cases x <;> simp, rfl, by decide⟩

end Raki.Source
