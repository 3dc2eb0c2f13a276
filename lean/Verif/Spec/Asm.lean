import Verif.Spec.Isa32
import Verif.Spec.Isa16
/-!
# An assembler

Written from the manuals' encoding tables: the word or halfword that encodes an instruction value, and
the values that can be encoded.  From the model only the public data types are used.
-/

namespace Raki.Spec

/-- The `n`-bit two's complement of `z`. -/
def ofI (n : Nat) (z : Int) : Nat := (z % 2 ^ n).toNat

/-! ## 32-bit -/

/-- A word from its six standard fields. -/
def word (major rd f3 rs1 rs2 f7 : Nat) : Nat :=
  major + rd * 2 ^ 7 + f3 * 2 ^ 12 + rs1 * 2 ^ 15 + rs2 * 2 ^ 20 + f7 * 2 ^ 25

/-- A word from its fields, with a 12-bit field at the top. -/
def wordI (major rd f3 rs1 top : Nat) : Nat :=
  major + rd * 2 ^ 7 + f3 * 2 ^ 12 + rs1 * 2 ^ 15 + top * 2 ^ 20

/-- The word for a row of the opcode tables and operand values (0 for an operand that is absent). -/
def encode32 (r : Row) (rd rs1 rs2 : Nat) (z : Int) : Nat :=
  match r.fmt with
  | .R => word r.major rd r.f3 rs1 rs2 r.code
  | .I | .Fence => wordI r.major rd r.f3 rs1 (ofI 12 z)
  | .S => word r.major (fld (ofI 12 z) 4 0) r.f3 rs1 rs2 (fld (ofI 12 z) 11 5)
  | .B => word r.major (fld (ofI 13 z) 4 1 * 2 + fld (ofI 13 z) 11 11) r.f3 rs1 rs2
      (fld (ofI 13 z) 12 12 * 2 ^ 6 + fld (ofI 13 z) 10 5)
  | .U => r.major + rd * 2 ^ 7 + ofI 20 z * 2 ^ 12
  | .J => r.major + rd * 2 ^ 7 + fld (ofI 21 z) 19 12 * 2 ^ 12 + fld (ofI 21 z) 11 11 * 2 ^ 20
      + fld (ofI 21 z) 10 1 * 2 ^ 21 + fld (ofI 21 z) 20 20 * 2 ^ 31
  | .ShX | .ShW => wordI r.major rd r.f3 rs1 (r.code * 2 ^ 5 + ofI 6 z)
  | .Amo => word r.major rd r.f3 rs1 rs2 (r.code * 2 ^ 2 + ofI 2 z)
  | .Lr => word r.major rd r.f3 rs1 0 (r.code * 2 ^ 2 + ofI 2 z)
  | .SsAmo => word r.major rd r.f3 rs1 rs2 (r.code * 2 ^ 2)
  | .CsrR => wordI r.major rd r.f3 rs1 rs2
  | .CsrI => wordI r.major rd r.f3 (ofI 5 z) rs2
  | .Cbo => wordI r.major 0 r.f3 rs1 r.code
  | .SsPush => word r.major 0 r.f3 0 rs2 r.code
  | .SsPop => wordI r.major 0 r.f3 rs1 r.code
  | .SsRd | .Cntr => wordI r.major rd r.f3 0 r.code
  | .Sys => wordI r.major 0 r.f3 0 r.code
  | .SfVma => word r.major 0 r.f3 rs1 rs2 r.code

/-- The word that encodes a 32-bit instruction value. -/
def asm32 (i : Instruction) : Nat :=
  match row32 i.opc with
  | none => 0
  | some r => encode32 r (i.rd.getD 0) (i.rs1.getD 0) (i.rs2.getD 0) (i.imm.getD 0)

/-- A register operand. -/
def isReg (o : Option Nat) : Prop := ∃ x, o = some x ∧ x < 32

/-- A CSR number. -/
def isCsr (o : Option Nat) : Prop := ∃ x, o = some x ∧ x < 4096

/-- Range of the immediate of a 32-bit instruction, by encoding format. -/
def immRange32 (isa : Isa) (f : Fmt32) (z : Int) : Prop :=
  match f with
  | .I | .S => -2048 ≤ z ∧ z ≤ 2047
  | .B => -4096 ≤ z ∧ z ≤ 4094 ∧ z % 2 = 0
  | .J => -1048576 ≤ z ∧ z ≤ 1048574 ∧ z % 2 = 0
  | .U => 0 ≤ z ∧ z < 1048576
  | .ShX => 0 ≤ z ∧ z < (match isa with | .Rv32 => 32 | .Rv64 => 64)
  | .ShW | .CsrI => 0 ≤ z ∧ z < 32
  | .Amo | .Lr => 0 ≤ z ∧ z < 4
  | .Fence => 0 ≤ z ∧ z < 4096
  | _ => False

/-- An immediate in the range of the format. -/
def isImm (isa : Isa) (f : Fmt32) (o : Option Int) : Prop := ∃ z, o = some z ∧ immRange32 isa f z

/-- The operands are those of an instruction of the format. -/
def operands32 (isa : Isa) (f : Fmt32) (i : Instruction) : Prop :=
  match f with
  | .R => isReg i.rd ∧ isReg i.rs1 ∧ isReg i.rs2 ∧ i.imm = none
  | .I | .ShX | .ShW | .Lr | .Fence =>
      isReg i.rd ∧ isReg i.rs1 ∧ i.rs2 = none ∧ isImm isa f i.imm
  | .S | .B => i.rd = none ∧ isReg i.rs1 ∧ isReg i.rs2 ∧ isImm isa f i.imm
  | .U | .J => isReg i.rd ∧ i.rs1 = none ∧ i.rs2 = none ∧ isImm isa f i.imm
  | .Amo => isReg i.rd ∧ isReg i.rs1 ∧ isReg i.rs2 ∧ isImm isa f i.imm
  | .SsAmo => isReg i.rd ∧ isReg i.rs1 ∧ isReg i.rs2 ∧ i.imm = none
  | .CsrR => isReg i.rd ∧ isReg i.rs1 ∧ isCsr i.rs2 ∧ i.imm = none
  | .CsrI => isReg i.rd ∧ i.rs1 = none ∧ isCsr i.rs2 ∧ isImm isa f i.imm
  | .Cbo => i.rd = none ∧ isReg i.rs1 ∧ i.rs2 = none ∧ i.imm = none
  | .SsPush => i.rd = some 0 ∧ i.rs1 = some 0 ∧ (i.rs2 = some 1 ∨ i.rs2 = some 5) ∧ i.imm = none
  | .SsPop => i.rd = some 0 ∧ (i.rs1 = some 1 ∨ i.rs1 = some 5) ∧ i.rs2 = none ∧ i.imm = none
  | .SsRd => isReg i.rd ∧ i.rd ≠ some 0 ∧ i.rs1 = none ∧ i.rs2 = none ∧ i.imm = none
  | .Cntr => isReg i.rd ∧ i.rs1 = none ∧ i.rs2 = none ∧ i.imm = none
  | .Sys => i.rd = none ∧ i.rs1 = none ∧ i.rs2 = none ∧ i.imm = none
  | .SfVma => i.rd = none ∧ isReg i.rs1 ∧ isReg i.rs2 ∧ i.imm = none

/-- The value is a well-formed 32-bit instruction of the ISA.  (`csrrs` on a counter CSR goes by the name
of the counter read.) -/
def WF32 (isa : Isa) (i : Instruction) : Prop :=
  existsIn isa i.opc ∧
  (i.opc = .Zicsr .CSRRS → ∀ c, i.rs2 = some c → ¬ counterCsr c) ∧
  i.isCompressed = false ∧
  ∃ r, row32 i.opc = some r ∧ i.instFormat = instFormat32 i.opc r.fmt ∧ operands32 isa r.fmt i

/-! ## 16-bit -/

/-- A halfword from quadrant, funct3 and the bits 12..2 between them. -/
def half (q f3 mid : Nat) : Nat := q + mid * 2 ^ 2 + f3 * 2 ^ 13

/-- Bits 12..2 of the CI form: bit 12, register in 11..7, bits 6..2. -/
def midCI (b12 r b62 : Nat) : Nat := b62 + r * 2 ^ 5 + b12 * 2 ^ 10

/-- Bits 12..2 of forms with three-bit registers: bits 12..10, register in 9..7, bits 6..5, register in
4..2. -/
def midCL (b1210 r1 b65 r2 : Nat) : Nat := r2 + b65 * 2 ^ 3 + r1 * 2 ^ 5 + b1210 * 2 ^ 8

/-- Bits 12..2 of the jump form, from the 12-bit offset. -/
def midCJ (u : Nat) : Nat :=
  fld u 5 5 + fld u 3 1 * 2 + fld u 7 7 * 2 ^ 4 + fld u 6 6 * 2 ^ 5 + fld u 10 10 * 2 ^ 6
    + fld u 9 8 * 2 ^ 7 + fld u 4 4 * 2 ^ 9 + fld u 11 11 * 2 ^ 10

/-- Bits 12..2 of the branch form, from the 9-bit offset. -/
def midCB (u r : Nat) : Nat :=
  midCL (fld u 8 8 * 2 ^ 2 + fld u 4 3) r (fld u 7 6) (fld u 2 1 * 2 + fld u 5 5)

/-- The halfword for a compressed opcode and operand values (0 for an operand that is absent). -/
def encode16 (op : OpcodeKind) (rd rs1 rs2 : Nat) (z : Int) : Nat :=
  match op with
  | .C .ADDI4SPN => let u := ofI 10 z
      half 0 0 (rd - 8 + fld u 3 3 * 2 ^ 3 + fld u 2 2 * 2 ^ 4 + fld u 9 6 * 2 ^ 5 + fld u 5 4 * 2 ^ 9)
  | .C .LW => let u := ofI 7 z
      half 0 2 (midCL (fld u 5 3) (rs1 - 8) (fld u 2 2 * 2 + fld u 6 6) (rd - 8))
  | .C .LD => let u := ofI 8 z
      half 0 3 (midCL (fld u 5 3) (rs1 - 8) (fld u 7 6) (rd - 8))
  | .C .SW => let u := ofI 7 z
      half 0 6 (midCL (fld u 5 3) (rs1 - 8) (fld u 2 2 * 2 + fld u 6 6) (rs2 - 8))
  | .C .SD => let u := ofI 8 z
      half 0 7 (midCL (fld u 5 3) (rs1 - 8) (fld u 7 6) (rs2 - 8))
  | .C .NOP => let u := ofI 6 z
      half 1 0 (midCI (fld u 5 5) 0 (fld u 4 0))
  | .C .ADDI => let u := ofI 6 z
      half 1 0 (midCI (fld u 5 5) rd (fld u 4 0))
  | .C .JAL => half 1 1 (midCJ (ofI 12 z))
  | .C .ADDIW => let u := ofI 6 z
      half 1 1 (midCI (fld u 5 5) rd (fld u 4 0))
  | .C .LI => let u := ofI 6 z
      half 1 2 (midCI (fld u 5 5) rd (fld u 4 0))
  | .C .ADDI16SP => let u := ofI 10 z
      half 1 3 (midCI (fld u 9 9) 2
        (fld u 4 4 * 2 ^ 4 + fld u 6 6 * 2 ^ 3 + fld u 8 7 * 2 + fld u 5 5))
  | .C .LUI => let u := ofI 18 z
      half 1 3 (midCI (fld u 17 17) rd (fld u 16 12))
  | .C .SRLI => let u := ofI 6 z
      half 1 4 (midCI (fld u 5 5) (rd - 8) (fld u 4 0))
  | .C .SRAI => let u := ofI 6 z
      half 1 4 (midCI (fld u 5 5) (1 * 2 ^ 3 + (rd - 8)) (fld u 4 0))
  | .C .ANDI => let u := ofI 6 z
      half 1 4 (midCI (fld u 5 5) (2 * 2 ^ 3 + (rd - 8)) (fld u 4 0))
  | .C .SUB => half 1 4 (midCL 3 (rd - 8) 0 (rs2 - 8))
  | .C .XOR => half 1 4 (midCL 3 (rd - 8) 1 (rs2 - 8))
  | .C .OR => half 1 4 (midCL 3 (rd - 8) 2 (rs2 - 8))
  | .C .AND => half 1 4 (midCL 3 (rd - 8) 3 (rs2 - 8))
  | .C .SUBW => half 1 4 (midCL 7 (rd - 8) 0 (rs2 - 8))
  | .C .ADDW => half 1 4 (midCL 7 (rd - 8) 1 (rs2 - 8))
  | .C .J => half 1 5 (midCJ (ofI 12 z))
  | .C .BEQZ => half 1 6 (midCB (ofI 9 z) (rs1 - 8))
  | .C .BNEZ => half 1 7 (midCB (ofI 9 z) (rs1 - 8))
  | .C .SLLI => let u := ofI 6 z
      half 2 0 (midCI (fld u 5 5) rd (fld u 4 0))
  | .C .LWSP => let u := ofI 8 z
      half 2 2 (midCI (fld u 5 5) rd (fld u 4 2 * 2 ^ 2 + fld u 7 6))
  | .C .LDSP => let u := ofI 9 z
      half 2 3 (midCI (fld u 5 5) rd (fld u 4 3 * 2 ^ 3 + fld u 8 6))
  | .C .JR => half 2 4 (midCI 0 rs1 0)
  | .C .MV => half 2 4 (midCI 0 rd rs2)
  | .C .EBREAK => half 2 4 (midCI 1 0 0)
  | .C .JALR => half 2 4 (midCI 1 rs1 0)
  | .C .ADD => half 2 4 (midCI 1 rd rs2)
  | .C .SWSP => let u := ofI 8 z
      half 2 6 (rs2 + fld u 7 6 * 2 ^ 5 + fld u 5 2 * 2 ^ 7)
  | .C .SDSP => let u := ofI 9 z
      half 2 7 (rs2 + fld u 8 6 * 2 ^ 5 + fld u 5 3 * 2 ^ 8)
  | .Zicfiss .C_SSPUSH => 0x6081
  | .Zicfiss .C_SSPOPCHK => 0x6281
  | _ => 0

/-- The halfword that encodes a compressed instruction value. -/
def asm16 (i : Instruction) : Nat :=
  encode16 i.opc (i.rd.getD 0) (i.rs1.getD 0) (i.rs2.getD 0) (i.imm.getD 0)

/-- A register operand among x8..x15. -/
def isRegC (o : Option Nat) : Prop := ∃ x, o = some x ∧ 8 ≤ x ∧ x ≤ 15

/-- A register operand other than x0. -/
def isReg1 (o : Option Nat) : Prop := ∃ x, o = some x ∧ 1 ≤ x ∧ x < 32

/-- An immediate with the given property. -/
def immSat (p : Int → Prop) (o : Option Int) : Prop := ∃ z, o = some z ∧ p z

/-- Range and alignment of the immediate of a compressed instruction. -/
def immRange16 (op : OpcodeKind) (z : Int) : Prop :=
  match op with
  | .C .ADDI4SPN => 0 ≤ z ∧ z ≤ 1020 ∧ z % 4 = 0
  | .C .LW | .C .SW => 0 ≤ z ∧ z ≤ 124 ∧ z % 4 = 0
  | .C .LD | .C .SD => 0 ≤ z ∧ z ≤ 248 ∧ z % 8 = 0
  | .C .NOP | .C .ADDI | .C .ADDIW | .C .LI | .C .ANDI => -32 ≤ z ∧ z ≤ 31
  | .C .SRLI | .C .SRAI | .C .SLLI => 0 ≤ z ∧ z ≤ 63
  | .C .JAL | .C .J => -2048 ≤ z ∧ z ≤ 2046 ∧ z % 2 = 0
  | .C .BEQZ | .C .BNEZ => -256 ≤ z ∧ z ≤ 254 ∧ z % 2 = 0
  | .C .ADDI16SP => -512 ≤ z ∧ z ≤ 496 ∧ z % 16 = 0
  | .C .LUI => -131072 ≤ z ∧ z ≤ 126976 ∧ z % 4096 = 0
  | .C .LWSP | .C .SWSP => 0 ≤ z ∧ z ≤ 252 ∧ z % 4 = 0
  | .C .LDSP | .C .SDSP => 0 ≤ z ∧ z ≤ 504 ∧ z % 8 = 0
  | _ => False

/-- The operands are those of a compressed instruction with the given opcode, as the manual allows it
(reserved operand values excluded, hints included), except that `c.add` to x0 is left out: the decoder
takes it for `c.ebreak`. -/
def operands16 (isa : Isa) (i : Instruction) : Prop :=
  match i.opc with
  | .C .ADDI4SPN => isRegC i.rd ∧ i.rs1 = none ∧ i.rs2 = none ∧
      immSat (fun z => immRange16 i.opc z ∧ z ≠ 0) i.imm
  | .C .LW | .C .LD => isRegC i.rd ∧ isRegC i.rs1 ∧ i.rs2 = none ∧ immSat (immRange16 i.opc) i.imm
  | .C .SW | .C .SD => i.rd = none ∧ isRegC i.rs1 ∧ isRegC i.rs2 ∧ immSat (immRange16 i.opc) i.imm
  | .C .NOP | .C .JAL | .C .J =>
      i.rd = none ∧ i.rs1 = none ∧ i.rs2 = none ∧ immSat (immRange16 i.opc) i.imm
  | .C .ADDI | .C .ADDIW =>
      isReg1 i.rd ∧ i.rs1 = i.rd ∧ i.rs2 = none ∧ immSat (immRange16 i.opc) i.imm
  | .C .LI => isReg i.rd ∧ i.rs1 = none ∧ i.rs2 = none ∧ immSat (immRange16 i.opc) i.imm
  | .C .ADDI16SP => i.rd = some 2 ∧ i.rs1 = some 2 ∧ i.rs2 = none ∧
      immSat (fun z => immRange16 i.opc z ∧ z ≠ 0) i.imm
  | .C .LUI => isReg i.rd ∧ i.rd ≠ some 2 ∧ i.rs1 = none ∧ i.rs2 = none ∧
      immSat (fun z => immRange16 i.opc z ∧ z ≠ 0) i.imm
  | .C .SRLI | .C .SRAI => isRegC i.rd ∧ i.rs1 = i.rd ∧ i.rs2 = none ∧
      immSat (fun z => immRange16 i.opc z ∧ (isa = .Rv32 → z < 32)) i.imm
  | .C .SLLI => isReg i.rd ∧ i.rs1 = i.rd ∧ i.rs2 = none ∧
      immSat (fun z => immRange16 i.opc z ∧ (isa = .Rv32 → z < 32)) i.imm
  | .C .ANDI => isRegC i.rd ∧ i.rs1 = i.rd ∧ i.rs2 = none ∧ immSat (immRange16 i.opc) i.imm
  | .C .SUB | .C .XOR | .C .OR | .C .AND | .C .SUBW | .C .ADDW =>
      isRegC i.rd ∧ i.rs1 = i.rd ∧ isRegC i.rs2 ∧ i.imm = none
  | .C .BEQZ | .C .BNEZ =>
      i.rd = none ∧ isRegC i.rs1 ∧ i.rs2 = none ∧ immSat (immRange16 i.opc) i.imm
  | .C .LWSP | .C .LDSP =>
      isReg1 i.rd ∧ i.rs1 = none ∧ i.rs2 = none ∧ immSat (immRange16 i.opc) i.imm
  | .C .JR | .C .JALR => i.rd = none ∧ isReg1 i.rs1 ∧ i.rs2 = some 0 ∧ i.imm = none
  | .C .MV => isReg i.rd ∧ i.rs1 = none ∧ isReg1 i.rs2 ∧ i.imm = none
  | .C .ADD => isReg1 i.rd ∧ i.rs1 = i.rd ∧ isReg1 i.rs2 ∧ i.imm = none
  | .C .EBREAK => i.rd = none ∧ i.rs1 = none ∧ i.rs2 = none ∧ i.imm = none
  | .C .SWSP | .C .SDSP =>
      i.rd = none ∧ i.rs1 = none ∧ isReg i.rs2 ∧ immSat (immRange16 i.opc) i.imm
  | .Zicfiss .C_SSPUSH => i.rd = some 1 ∧ i.rs1 = none ∧ i.rs2 = none ∧ i.imm = none
  | .Zicfiss .C_SSPOPCHK => i.rd = some 5 ∧ i.rs1 = none ∧ i.rs2 = none ∧ i.imm = none
  | _ => False

/-- The manual's assignment of compressed instructions to ISAs. -/
def existsIn16 (isa : Isa) : OpcodeKind → Prop
  | .C .JAL => isa = .Rv32
  | .C .LD | .C .SD | .C .ADDIW | .C .SUBW | .C .ADDW | .C .LDSP | .C .SDSP => isa = .Rv64
  | _ => True

/-- The value is a well-formed compressed instruction of the ISA. -/
def WF16 (isa : Isa) (i : Instruction) : Prop :=
  existsIn16 isa i.opc ∧ i.isCompressed = true ∧ i.instFormat = instFormat16 i.opc ∧
    operands16 isa i

end Raki.Spec
