import Verif.Spec.Asm
/-!
# Expansion of compressed instructions

Written from the manual's definitions "c.xxx … expands to …".  From the model only the public data types
are used.
-/

namespace Raki.Spec

/-- A 32-bit instruction value with its format. -/
def mk32 (op : OpcodeKind) (rd rs1 rs2 : Option Nat) (imm : Option Int) : Instruction where
  opc := op
  rd := rd
  rs1 := rs1
  rs2 := rs2
  imm := imm
  instFormat := match row32 op with
    | some r => instFormat32 op r.fmt
    | none => .NoOperand
  isCompressed := false

/-- The 32-bit instruction that a compressed one stands for.  The immediate of `lui` counts units of 4096
and is given as its low 20 bits. -/
def expand (i : Instruction) : Option Instruction :=
  match i.opc with
  | .C .ADDI4SPN => some (mk32 (.BaseI .ADDI) i.rd (some 2) none i.imm)
  | .C .LW => some (mk32 (.BaseI .LW) i.rd i.rs1 none i.imm)
  | .C .LD => some (mk32 (.BaseI .LD) i.rd i.rs1 none i.imm)
  | .C .SW => some (mk32 (.BaseI .SW) none i.rs1 i.rs2 i.imm)
  | .C .SD => some (mk32 (.BaseI .SD) none i.rs1 i.rs2 i.imm)
  | .C .NOP => some (mk32 (.BaseI .ADDI) (some 0) (some 0) none i.imm)
  | .C .ADDI => some (mk32 (.BaseI .ADDI) i.rd i.rd none i.imm)
  | .C .JAL => some (mk32 (.BaseI .JAL) (some 1) none none i.imm)
  | .C .ADDIW => some (mk32 (.BaseI .ADDIW) i.rd i.rd none i.imm)
  | .C .LI => some (mk32 (.BaseI .ADDI) i.rd (some 0) none i.imm)
  | .C .ADDI16SP => some (mk32 (.BaseI .ADDI) (some 2) (some 2) none i.imm)
  | .C .LUI => some (mk32 (.BaseI .LUI) i.rd none none (i.imm.map fun z => (z / 4096) % 2 ^ 20))
  | .C .SRLI => some (mk32 (.BaseI .SRLI) i.rd i.rd none i.imm)
  | .C .SRAI => some (mk32 (.BaseI .SRAI) i.rd i.rd none i.imm)
  | .C .ANDI => some (mk32 (.BaseI .ANDI) i.rd i.rd none i.imm)
  | .C .SUB => some (mk32 (.BaseI .SUB) i.rd i.rd i.rs2 none)
  | .C .XOR => some (mk32 (.BaseI .XOR) i.rd i.rd i.rs2 none)
  | .C .OR => some (mk32 (.BaseI .OR) i.rd i.rd i.rs2 none)
  | .C .AND => some (mk32 (.BaseI .AND) i.rd i.rd i.rs2 none)
  | .C .SUBW => some (mk32 (.BaseI .SUBW) i.rd i.rd i.rs2 none)
  | .C .ADDW => some (mk32 (.BaseI .ADDW) i.rd i.rd i.rs2 none)
  | .C .J => some (mk32 (.BaseI .JAL) (some 0) none none i.imm)
  | .C .BEQZ => some (mk32 (.BaseI .BEQ) none i.rs1 (some 0) i.imm)
  | .C .BNEZ => some (mk32 (.BaseI .BNE) none i.rs1 (some 0) i.imm)
  | .C .SLLI => some (mk32 (.BaseI .SLLI) i.rd i.rd none i.imm)
  | .C .LWSP => some (mk32 (.BaseI .LW) i.rd (some 2) none i.imm)
  | .C .LDSP => some (mk32 (.BaseI .LD) i.rd (some 2) none i.imm)
  | .C .JR => some (mk32 (.BaseI .JALR) (some 0) i.rs1 none (some 0))
  | .C .MV => some (mk32 (.BaseI .ADD) i.rd (some 0) i.rs2 none)
  | .C .EBREAK => some (mk32 (.BaseI .EBREAK) none none none none)
  | .C .JALR => some (mk32 (.BaseI .JALR) (some 1) i.rs1 none (some 0))
  | .C .ADD => some (mk32 (.BaseI .ADD) i.rd i.rd i.rs2 none)
  | .C .SWSP => some (mk32 (.BaseI .SW) none (some 2) i.rs2 i.imm)
  | .C .SDSP => some (mk32 (.BaseI .SD) none (some 2) i.rs2 i.imm)
  | .Zicfiss .C_SSPUSH => some (mk32 (.Zicfiss .SSPUSH) (some 0) (some 0) i.rd none)
  | .Zicfiss .C_SSPOPCHK => some (mk32 (.Zicfiss .SSPOPCHK) (some 0) i.rd none none)
  | _ => none

/-- A shift by 32 or more, reserved on RV32. -/
def longShift (isa : Isa) (i : Instruction) : Prop :=
  isa = .Rv32 ∧ (i.opc = .C .SLLI ∨ i.opc = .C .SRLI ∨ i.opc = .C .SRAI) ∧ ∃ z, i.imm = some z ∧ 32 ≤ z

end Raki.Spec
