import Verif.Spec.OldOpcode
import Verif.Props.Derive
import Verif.Source.Codes
/-!
# The older opcode list beside the current one
-/

namespace Raki
open Spec

/-- The capitalised manual name. -/
private def key (op : OpcodeKind) : String := String.ofList ((manualName op).toList.map capital)

private theorem key_find (op : OpcodeKind) :
    allOpcodes.find? (fun g => key g == key op) = some op := by
  rcases op with o | o | o | o | o | o | o | o | o | o
  all_goals cases o
  all_goals kernel_rfl

private theorem key_inj {a b : OpcodeKind} (h : key a = key b) : a = b := by
  have hf := key_find a
  rw [h, key_find b] at hf
  injection hf with hf
  exact hf.symm

/-- The opcode an older entry stands for today. -/
private def now : OldOpcode → OpcodeKind
  | .LUI => .BaseI .LUI | .AUIPC => .BaseI .AUIPC | .JAL => .BaseI .JAL | .JALR => .BaseI .JALR
  | .BEQ => .BaseI .BEQ | .BNE => .BaseI .BNE | .BLT => .BaseI .BLT | .BGE => .BaseI .BGE
  | .BLTU => .BaseI .BLTU | .BGEU => .BaseI .BGEU | .LB => .BaseI .LB | .LH => .BaseI .LH | .LW => .BaseI .LW
  | .LBU => .BaseI .LBU | .LHU => .BaseI .LHU | .SB => .BaseI .SB | .SH => .BaseI .SH | .SW => .BaseI .SW
  | .ADDI => .BaseI .ADDI | .SLTI => .BaseI .SLTI | .SLTIU => .BaseI .SLTIU | .XORI => .BaseI .XORI
  | .ORI => .BaseI .ORI | .ANDI => .BaseI .ANDI | .SLLI => .BaseI .SLLI | .SRLI => .BaseI .SRLI
  | .SRAI => .BaseI .SRAI | .ADD => .BaseI .ADD | .SUB => .BaseI .SUB | .SLL => .BaseI .SLL
  | .SLT => .BaseI .SLT | .SLTU => .BaseI .SLTU | .XOR => .BaseI .XOR | .SRL => .BaseI .SRL
  | .SRA => .BaseI .SRA | .OR => .BaseI .OR | .AND => .BaseI .AND | .FENCE => .Zifencei .FENCE
  | .ECALL => .BaseI .ECALL | .EBREAK => .BaseI .EBREAK | .LWU => .BaseI .LWU | .LD => .BaseI .LD
  | .SD => .BaseI .SD | .ADDIW => .BaseI .ADDIW | .SLLIW => .BaseI .SLLIW | .SRLIW => .BaseI .SRLIW
  | .SRAIW => .BaseI .SRAIW | .ADDW => .BaseI .ADDW | .SUBW => .BaseI .SUBW | .SLLW => .BaseI .SLLW
  | .SRLW => .BaseI .SRLW | .SRAW => .BaseI .SRAW | .CSRRW => .Zicsr .CSRRW | .CSRRS => .Zicsr .CSRRS
  | .CSRRC => .Zicsr .CSRRC | .CSRRWI => .Zicsr .CSRRWI | .CSRRSI => .Zicsr .CSRRSI
  | .CSRRCI => .Zicsr .CSRRCI | .SRET => .Priv .SRET | .MRET => .Priv .MRET | .WFI => .Priv .WFI
  | .SFENCE_VMA => .Priv .SFENCE_VMA | .MUL => .M .MUL | .MULH => .M .MULH | .MULHSU => .M .MULHSU
  | .MULHU => .M .MULHU | .DIV => .M .DIV | .DIVU => .M .DIVU | .REM => .M .REM | .REMU => .M .REMU
  | .MULW => .M .MULW | .DIVW => .M .DIVW | .DIVUW => .M .DIVUW | .REMW => .M .REMW | .REMUW => .M .REMUW
  | .LR_W => .A .LR_W | .SC_W => .A .SC_W | .AMOSWAP_W => .A .AMOSWAP_W | .AMOADD_W => .A .AMOADD_W
  | .AMOXOR_W => .A .AMOXOR_W | .AMOAND_W => .A .AMOAND_W | .AMOOR_W => .A .AMOOR_W
  | .AMOMIN_W => .A .AMOMIN_W | .AMOMAX_W => .A .AMOMAX_W | .AMOMINU_W => .A .AMOMINU_W
  | .AMOMAXU_W => .A .AMOMAXU_W | .LR_D => .A .LR_D | .SC_D => .A .SC_D | .AMOSWAP_D => .A .AMOSWAP_D
  | .AMOADD_D => .A .AMOADD_D | .AMOXOR_D => .A .AMOXOR_D | .AMOAND_D => .A .AMOAND_D
  | .AMOOR_D => .A .AMOOR_D | .AMOMIN_D => .A .AMOMIN_D | .AMOMAX_D => .A .AMOMAX_D
  | .AMOMINU_D => .A .AMOMINU_D | .AMOMAXU_D => .A .AMOMAXU_D | .C_ADDI4SPN => .C .ADDI4SPN | .C_LW => .C .LW
  | .C_SW => .C .SW | .C_NOP => .C .NOP | .C_ADDI => .C .ADDI | .C_JAL => .C .JAL | .C_LI => .C .LI
  | .C_ADDI16SP => .C .ADDI16SP | .C_LUI => .C .LUI | .C_SRLI => .C .SRLI | .C_SRAI => .C .SRAI
  | .C_ANDI => .C .ANDI | .C_SUB => .C .SUB | .C_XOR => .C .XOR | .C_OR => .C .OR | .C_AND => .C .AND
  | .C_J => .C .J | .C_BEQZ => .C .BEQZ | .C_BNEZ => .C .BNEZ | .C_SLLI => .C .SLLI | .C_LWSP => .C .LWSP
  | .C_JR => .C .JR | .C_MV => .C .MV | .C_EBREAK => .C .EBREAK | .C_JALR => .C .JALR | .C_ADD => .C .ADD
  | .C_SWSP => .C .SWSP | .C_LD => .C .LD | .C_SD => .C .SD | .C_ADDIW => .C .ADDIW | .C_SUBW => .C .SUBW
  | .C_ADDW => .C .ADDW | .C_LDSP => .C .LDSP | .C_SDSP => .C .SDSP

private theorem now_same (o : OldOpcode) : sameInstruction o (now o) := by
  cases o <;> rfl

private theorem same_iff {o : OldOpcode} {op : OpcodeKind} : sameInstruction o op ↔ op = now o := by
  constructor
  · intro h; exact key_inj (h.symm.trans (now_same o))
  · rintro rfl; exact now_same o

/-- The older entries. -/
private def allOld : List OldOpcode := (List.range 132).map OldOpcode.ofNat

private theorem ident_find (o : OldOpcode) : allOld.find? (fun g => g.ident == o.ident) = some o := by
  cases o <;> rfl

private theorem ident_inj {a b : OldOpcode} (h : a.ident = b.ident) : a = b := by
  have hf := ident_find a
  rw [h, ident_find b] at hf
  injection hf with hf
  exact hf.symm

/-- C77.  Every older entry stands for exactly one of today's opcodes. -/
theorem C77_kept (o : OldOpcode) :
    ∃ op, sameInstruction o op ∧ ∀ op', sameInstruction o op' → op' = op :=
  ⟨now o, now_same o, fun _ h => same_iff.1 h⟩

/-- C77.  Today's opcodes come from at most one older entry, and from none exactly if they belong to Zicntr, Zicboz or
Zicfiss. -/
theorem C77_added (op : OpcodeKind) :
    (∀ o o', sameInstruction o op → sameInstruction o' op → o = o') ∧
      ((¬ ∃ o, sameInstruction o op) ↔ addedSince op) := by
  refine ⟨fun o o' h h' => ident_inj (h.trans h'.symm), ?_⟩
  constructor
  · intro h
    have hn : (allOld.find? (fun g => g.ident == key op)) = none := by
      rw [List.find?_eq_none]
      intro o _ ho
      exact h ⟨o, by simpa [key, sameInstruction] using ho⟩
    revert hn
    clear h
    rcases op with o | o | o | o | o | o | o | o | o | o
    all_goals cases o
    all_goals first | (intro _; trivial) | (intro hn; exact absurd hn (by decide))
  · rintro h ⟨o, ho⟩
    obtain rfl := same_iff.1 ho
    clear ho
    revert h
    cases o <;> exact id

/-- C77.  The operand formats are the same. -/
theorem C77_format (o : OldOpcode) (op : OpcodeKind) (h : sameInstruction o op) :
    o.getFormat = op.getFormat := by
  obtain rfl := same_iff.1 h
  clear h
  cases o <;> rfl

/-- C77.  The extension is the same for all but `fence`, which was in the base set. -/
theorem C77_extension (o : OldOpcode) (op : OpcodeKind) (h : sameInstruction o op) :
    (o.getExtension = extensionOf op ↔ manualName op ≠ "fence") ∧
      (manualName op = "fence" → o.getExtension = .BaseI ∧ extensionOf op = .Zifencei) := by
  obtain rfl := same_iff.1 h
  clear h
  cases o <;> decide

/-- C77.  The older names are the manual's, with a capital `C` in front for compressed instructions. -/
theorem C77_manual (o : OldOpcode) (op : OpcodeKind) (h : sameInstruction o op) :
    o.toStr = if extensionOf op = .C then "C" ++ String.ofList ((manualName op).toList.drop 1)
      else manualName op := by
  obtain rfl := same_iff.1 h
  clear h
  cases o <;> rfl

/-- C77.  The text is the same for all but `mulhsu` and `fence`. -/
theorem C77_name (o : OldOpcode) (op : OpcodeKind) (h : sameInstruction o op) :
    o.toStr = op.toStr ↔ manualName op ≠ "mulhsu" ∧ manualName op ≠ "fence" := by
  obtain rfl := same_iff.1 h
  clear h
  cases o <;> decide

example : sameInstruction .C_ADDI4SPN (.C .ADDI4SPN) := rfl
example : sameInstruction .FENCE (.Zifencei .FENCE) := rfl
example : sameInstruction .AMOMAXU_D (.A .AMOMAXU_D) := rfl
example : addedSince (.Zicfiss .SSPUSH) := trivial

end Raki
