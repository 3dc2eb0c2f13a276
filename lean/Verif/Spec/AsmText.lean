import Verif.Spec.Text
/-!
# Assembly syntax

The text an assembler for the RISC-V manuals reads for an instruction: operands in the order of the
assembly language, memory operands as `offset(base)` or `(base)`, and numbers that denote the operand's
value, in decimal or, behind `0x`, in hexadecimal.
-/

namespace Raki.Spec

/-- An operand in assembly language. -/
inductive AsmArg where
  /-- Register operands. -/
  | rd | rs1 | rs2
  /-- The register `sp`. -/
  | sp
  /-- The number of a CSR, which instruction values keep in `rs2`. -/
  | csr
  /-- An immediate. -/
  | imm
  /-- `imm(rs1)`. -/
  | mem
  /-- `(rs1)`. -/
  | ptr
  /-- `imm(sp)`. -/
  | memSp
  deriving DecidableEq, Repr

/-- A number in assembly language. -/
def isNumber (s : String) (z : Int) : Prop :=
  isDecimal s z ∨ ∃ (n : Nat) (d : String), z = n ∧ isHex d n ∧ s = "0x" ++ d

/-- The text of an operand. -/
def asmArgText (i : Instruction) (a : AsmArg) (s : String) : Prop :=
  match a with
  | .rd => isName i.rd s
  | .rs1 => isName i.rs1 s
  | .rs2 => isName i.rs2 s
  | .sp => s = "sp"
  | .csr => ∃ n : Nat, i.rs2 = some n ∧ isNumber s n
  | .imm => ∃ z, i.imm = some z ∧ isNumber s z
  | .mem => ∃ z d r, i.imm = some z ∧ isNumber d z ∧ isName i.rs1 r ∧ s = d ++ "(" ++ r ++ ")"
  | .ptr => ∃ r, isName i.rs1 r ∧ s = "(" ++ r ++ ")"
  | .memSp => ∃ z d, i.imm = some z ∧ isNumber d z ∧ s = d ++ "(sp)"

/-- The texts are those of the operands, one for one. -/
def asmArgTexts (i : Instruction) : List AsmArg → List String → Prop
  | [], [] => True
  | a :: as, s :: ss => asmArgText i a s ∧ asmArgTexts i as ss
  | _, _ => False

/-- The operand lists the assembly language has for an opcode. -/
def asmSyntax : OpcodeKind → List (List AsmArg)
  | .BaseI .LUI | .BaseI .AUIPC | .BaseI .JAL => [[.rd, .imm]]
  | .BaseI .BEQ | .BaseI .BNE | .BaseI .BLT | .BaseI .BGE | .BaseI .BLTU | .BaseI .BGEU =>
      [[.rs1, .rs2, .imm]]
  | .BaseI .SB | .BaseI .SH | .BaseI .SW | .BaseI .SD => [[.rs2, .mem]]
  | .BaseI .JALR => [[.rd, .mem], [.rd, .rs1, .imm]]
  | .BaseI .LB | .BaseI .LH | .BaseI .LW | .BaseI .LBU | .BaseI .LHU | .BaseI .LWU | .BaseI .LD =>
      [[.rd, .mem]]
  | .BaseI .ADDI | .BaseI .SLTI | .BaseI .SLTIU | .BaseI .XORI | .BaseI .ORI | .BaseI .ANDI
  | .BaseI .ADDIW | .BaseI .SLLI | .BaseI .SRLI | .BaseI .SRAI | .BaseI .SLLIW | .BaseI .SRLIW
  | .BaseI .SRAIW => [[.rd, .rs1, .imm]]
  | .BaseI .ECALL | .BaseI .EBREAK => [[]]
  | .BaseI _ | .M _ => [[.rd, .rs1, .rs2]]
  | .A .LR_W | .A .LR_D => [[.rd, .ptr]]
  | .A _ => [[.rd, .rs2, .ptr]]
  | .C .ADDI4SPN => [[.rd, .sp, .imm]]
  | .C .LW | .C .LD => [[.rd, .mem]]
  | .C .SW | .C .SD => [[.rs2, .mem]]
  | .C .NOP | .C .EBREAK => [[]]
  | .C .JAL | .C .J => [[.imm]]
  | .C .LI | .C .ADDI | .C .ADDIW | .C .LUI | .C .SLLI | .C .SRLI | .C .SRAI | .C .ANDI => [[.rd, .imm]]
  | .C .ADDI16SP => [[.sp, .imm], [.imm]]
  | .C .LWSP | .C .LDSP => [[.rd, .memSp]]
  | .C .BEQZ | .C .BNEZ => [[.rs1, .imm]]
  | .C .SUB | .C .XOR | .C .OR | .C .AND | .C .SUBW | .C .ADDW | .C .ADD | .C .MV => [[.rd, .rs2]]
  | .C .JR | .C .JALR => [[.rs1]]
  | .C .SWSP | .C .SDSP => [[.rs2, .memSp]]
  | .Zifencei .FENCE => [[]]
  | .Zicboz .CBO_ZERO => [[.ptr], [.mem]]
  | .Zicsr .CSRRW | .Zicsr .CSRRS | .Zicsr .CSRRC => [[.rd, .csr, .rs1]]
  | .Zicsr .CSRRWI | .Zicsr .CSRRSI | .Zicsr .CSRRCI => [[.rd, .csr, .imm]]
  | .Zicfiss .SSPUSH => [[.rs2]]
  | .Zicfiss .SSPOPCHK => [[.rs1]]
  | .Zicfiss .SSRDP => [[.rd]]
  | .Zicfiss .C_SSPUSH | .Zicfiss .C_SSPOPCHK => [[.rd]]
  | .Zicfiss .SSAMOSWAP_W | .Zicfiss .SSAMOSWAP_D => [[.rd, .rs2, .ptr]]
  | .Zicntr _ => [[.rd]]
  | .Priv .MRET | .Priv .SRET | .Priv .WFI => [[]]
  | .Priv .SFENCE_VMA => [[.rs1, .rs2]]

/-- The names under which an opcode is written: the manual's, where the `c` of a compressed one may be a
capital. -/
def asmNames : OpcodeKind → List String
  | .C o => [manualName (.C o), String.ofList ('C' :: (manualName (.C o)).toList.tail)]
  | op => [manualName op]

/-- The text is assembly language for the instruction. -/
def isAssembly (i : Instruction) (s : String) : Prop :=
  ∃ name ∈ asmNames i.opc, ∃ as ∈ asmSyntax i.opc, ∃ ss, asmArgTexts i as ss ∧ s = line name ss

/-- The opcodes all of whose decoded instructions are printed as assembly language. -/
def printsAssembly : OpcodeKind → Bool
  | .BaseI .LUI | .BaseI .AUIPC | .BaseI .JALR
  | .BaseI .ADDI | .BaseI .SLTI | .BaseI .SLTIU | .BaseI .XORI | .BaseI .ORI | .BaseI .ANDI
  | .BaseI .ADDIW
  | .BaseI .ADD | .BaseI .SUB | .BaseI .SLL | .BaseI .SLT | .BaseI .SLTU | .BaseI .XOR | .BaseI .SRL
  | .BaseI .SRA | .BaseI .OR | .BaseI .AND | .BaseI .ADDW | .BaseI .SUBW | .BaseI .SLLW | .BaseI .SRLW
  | .BaseI .SRAW | .BaseI .ECALL | .BaseI .EBREAK => true
  | .M .MULHSU => false
  | .M _ => true
  | .C .NOP | .C .EBREAK | .C .JAL | .C .J | .C .MV | .C .SWSP | .C .SDSP => true
  | .Zicsr _ => true
  | .Zicntr _ => true
  | .Zicfiss .SSRDP => true
  | .Priv .MRET | .Priv .SRET | .Priv .WFI => true
  | _ => false

end Raki.Spec
