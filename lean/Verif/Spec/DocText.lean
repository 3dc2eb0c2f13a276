import Verif.Spec.AsmText
/-!
# The texts shown in the documentation of the formats

The documentation of `InstFormat` shows, for each format, how instructions of it are written
(src/instruction.rs:266-438).
-/

namespace Raki.Spec

/-- A line of the documentation: an opcode, the name it is shown with and its operands. -/
structure DocLine where
  /-- The format the line stands under. -/
  format : InstFormat
  /-- The opcode it shows. -/
  opc : OpcodeKind
  /-- The name it shows. -/
  name : String
  /-- The operands it shows. -/
  args : List AsmArg
  deriving DecidableEq, Repr

/-- The lines of the documentation.  `x2` is read as the register `sp`, `shamt`, `nzimm` and `nzuimm` as the
immediate, `c.swsp rs2, imm` as the `sw rs2, imm(x2)` it is said to stand for, `ra` and `t0` under "only rs1
name" and "only rs2 name" as those operands, and the comma missing from `c.lw rd imm(rs1)` is supplied. -/
def docLines : List DocLine := [
  ⟨.RFormat, .BaseI .ADD, "add", [.rd, .rs1, .rs2]⟩,
  ⟨.RShamtFormat, .BaseI .SRAI, "srai", [.rd, .rs1]⟩,
  ⟨.IFormat, .BaseI .LW, "lw", [.rd, .mem]⟩,
  ⟨.SFormat, .BaseI .SW, "sw", [.rs2, .mem]⟩,
  ⟨.BFormat, .BaseI .BEQ, "beq", [.rs1, .rs2, .imm]⟩,
  ⟨.UFormat, .BaseI .LUI, "lui", [.rd, .imm]⟩,
  ⟨.JFormat, .BaseI .JAL, "jal", [.rd, .imm]⟩,
  ⟨.CrFormat, .C .MV, "c.mv", [.rd, .rs2]⟩,
  ⟨.CrFormat, .C .ADD, "c.add", [.rd, .rd, .rs2]⟩,
  ⟨.CiFormat, .C .NOP, "c.nop", []⟩,
  ⟨.CiFormat, .C .ADDI, "c.addi", [.rd, .rd, .imm]⟩,
  ⟨.CiFormat, .C .ADDI16SP, "c.addi16sp", [.sp, .sp, .imm]⟩,
  ⟨.CssFormat, .C .SWSP, "c.swsp", [.rs2, .memSp]⟩,
  ⟨.CiwFormat, .C .ADDI4SPN, "c.addi4spn", [.rd, .sp, .imm]⟩,
  ⟨.ClFormat, .C .LW, "c.lw", [.rd, .mem]⟩,
  ⟨.CsFormat, .C .SW, "c.sw", [.rs2, .mem]⟩,
  ⟨.CaFormat, .C .AND, "c.and", [.rd, .rd, .rs2]⟩,
  ⟨.CbFormat, .C .BEQZ, "c.beqz", [.rs1, .imm]⟩,
  ⟨.CbFormat, .C .SRAI, "c.srai", [.rd, .rd, .imm]⟩,
  ⟨.CjFormat, .C .J, "c.j", [.imm]⟩,
  ⟨.CsrFormat, .Zicsr .CSRRW, "csrrw", [.rd, .csr, .rs1]⟩,
  ⟨.CsrFormat, .Zicsr .CSRRWI, "csrrwi", [.rd, .csr, .imm]⟩,
  ⟨.CsrUiFormat, .Zicsr .CSRRWI, "csrrwi", [.rd, .csr, .imm]⟩,
  ⟨.MFormat, .M .MUL, "mul", [.rd, .rs1, .rs2]⟩,
  ⟨.AFormat, .A .SC_W, "sc.w", [.rd, .rs2, .ptr]⟩,
  ⟨.ALrFormat, .A .LR_W, "lr.w", [.rd, .ptr]⟩,
  ⟨.NoOperand, .BaseI .ECALL, "ecall", []⟩,
  ⟨.NoOperand, .Priv .WFI, "wfi", []⟩,
  ⟨.NoOperand, .Priv .MRET, "mret", []⟩,
  ⟨.NoOperand, .C .EBREAK, "c.ebreak", []⟩,
  ⟨.OnlyRd, .Zicntr .RDTIME, "rdtime", [.rd]⟩,
  ⟨.OnlyRd, .Zicfiss .SSRDP, "ssrdp", [.rd]⟩,
  ⟨.OnlyRs1, .Zicfiss .SSPUSH, "sspush", [.rs1]⟩,
  ⟨.OnlyRs2, .Zicfiss .SSPOPCHK, "sspopchk", [.rs2]⟩]

/-- The name shown, where the `c` of `c.` may be a capital. -/
def docNames (n : String) : List String :=
  [n, match n.toList with
    | 'c' :: '.' :: t => String.ofList ('C' :: '.' :: t)
    | _ => n]

/-- The text is the one the line shows, with the instruction's operands put in. -/
def isDocText (l : DocLine) (i : Instruction) (s : String) : Prop :=
  ∃ name ∈ docNames l.name, ∃ ss, asmArgTexts i l.args ss ∧ s = line name ss

/-- The lines whose opcode has another format than the one the line stands under. -/
def strayLines : List DocLine := [
  ⟨.CiFormat, .C .NOP, "c.nop", []⟩,
  ⟨.CsrFormat, .Zicsr .CSRRWI, "csrrwi", [.rd, .csr, .imm]⟩]

/-- The opcodes with a line that are printed otherwise. -/
def printedOtherwise : List OpcodeKind := [.BaseI .LW, .BaseI .SW, .BaseI .BEQ, .BaseI .JAL, .C .ADDI4SPN,
  .C .LW, .C .SW, .C .BEQZ, .C .SRAI, .A .SC_W, .A .LR_W, .Zicfiss .SSPOPCHK]

end Raki.Spec
