import Verif.Model.Rust
import Verif.Model.Types
import Verif.Spec.Bits
/-!
# Specification of the 16-bit encodings

Written from the RISC-V manual's tables for RVC (without the floating-point loads and stores) and for
the compressed shadow-stack instructions.  From the model only the public data types are used.
-/

namespace Raki.Spec

/-- The halfword is in quadrant `q` with funct3 `f3`. -/
def quad (h q f3 : Nat) : Prop := fld h 1 0 = q ∧ fld h 15 13 = f3

instance (h q f3 : Nat) : Decidable (quad h q f3) := by unfold quad; infer_instance

/-- The halfword is an encoding of `op` according to the manual, hints included and reserved encodings
excluded. -/
def official16 (isa : Isa) (h : Nat) : OpcodeKind → Prop
  | .C .ADDI4SPN => quad h 0 0 ∧ fld h 12 5 ≠ 0
  | .C .LW => quad h 0 2
  | .C .LD => quad h 0 3 ∧ isa = .Rv64
  | .C .SW => quad h 0 6
  | .C .SD => quad h 0 7 ∧ isa = .Rv64
  | .C .NOP => quad h 1 0 ∧ fld h 11 7 = 0
  | .C .ADDI => quad h 1 0 ∧ fld h 11 7 ≠ 0
  | .C .JAL => quad h 1 1 ∧ isa = .Rv32
  | .C .ADDIW => quad h 1 1 ∧ isa = .Rv64 ∧ fld h 11 7 ≠ 0
  | .C .LI => quad h 1 2
  | .C .ADDI16SP => quad h 1 3 ∧ fld h 11 7 = 2 ∧ (fld h 12 12 ≠ 0 ∨ fld h 6 2 ≠ 0)
  | .C .LUI => quad h 1 3 ∧ fld h 11 7 ≠ 2 ∧ (fld h 12 12 ≠ 0 ∨ fld h 6 2 ≠ 0)
  | .C .SRLI => quad h 1 4 ∧ fld h 11 10 = 0 ∧ (isa = .Rv32 → fld h 12 12 = 0)
  | .C .SRAI => quad h 1 4 ∧ fld h 11 10 = 1 ∧ (isa = .Rv32 → fld h 12 12 = 0)
  | .C .ANDI => quad h 1 4 ∧ fld h 11 10 = 2
  | .C .SUB => quad h 1 4 ∧ fld h 11 10 = 3 ∧ fld h 12 12 = 0 ∧ fld h 6 5 = 0
  | .C .XOR => quad h 1 4 ∧ fld h 11 10 = 3 ∧ fld h 12 12 = 0 ∧ fld h 6 5 = 1
  | .C .OR => quad h 1 4 ∧ fld h 11 10 = 3 ∧ fld h 12 12 = 0 ∧ fld h 6 5 = 2
  | .C .AND => quad h 1 4 ∧ fld h 11 10 = 3 ∧ fld h 12 12 = 0 ∧ fld h 6 5 = 3
  | .C .SUBW => quad h 1 4 ∧ fld h 11 10 = 3 ∧ fld h 12 12 = 1 ∧ fld h 6 5 = 0 ∧ isa = .Rv64
  | .C .ADDW => quad h 1 4 ∧ fld h 11 10 = 3 ∧ fld h 12 12 = 1 ∧ fld h 6 5 = 1 ∧ isa = .Rv64
  | .C .J => quad h 1 5
  | .C .BEQZ => quad h 1 6
  | .C .BNEZ => quad h 1 7
  | .C .SLLI => quad h 2 0 ∧ (isa = .Rv32 → fld h 12 12 = 0)
  | .C .LWSP => quad h 2 2 ∧ fld h 11 7 ≠ 0
  | .C .LDSP => quad h 2 3 ∧ fld h 11 7 ≠ 0 ∧ isa = .Rv64
  | .C .JR => quad h 2 4 ∧ fld h 12 12 = 0 ∧ fld h 11 7 ≠ 0 ∧ fld h 6 2 = 0
  | .C .MV => quad h 2 4 ∧ fld h 12 12 = 0 ∧ fld h 6 2 ≠ 0
  | .C .EBREAK => quad h 2 4 ∧ fld h 12 12 = 1 ∧ fld h 11 7 = 0 ∧ fld h 6 2 = 0
  | .C .JALR => quad h 2 4 ∧ fld h 12 12 = 1 ∧ fld h 11 7 ≠ 0 ∧ fld h 6 2 = 0
  | .C .ADD => quad h 2 4 ∧ fld h 12 12 = 1 ∧ fld h 6 2 ≠ 0
  | .C .SWSP => quad h 2 6
  | .C .SDSP => quad h 2 7 ∧ isa = .Rv64
  | .Zicfiss .C_SSPUSH => h = 0x6081
  | .Zicfiss .C_SSPOPCHK => h = 0x6281
  | _ => False

/-- The exact acceptance set of the decoder.  Compared with `official16`: reserved encodings of
`addi4spn` (other than the zero halfword), `addiw`, `addi16sp`, `lui`, `lwsp`, `ldsp`, `jr` and of the
RV32 shifts are accepted; `ebreak` is reported whatever bits 6..2 are, taking the hints `add x0, rs2`. -/
def accepts16 (isa : Isa) (h : Nat) : OpcodeKind → Prop
  | .C .ADDI4SPN => quad h 0 0 ∧ h ≠ 0
  | .C .ADDIW => quad h 1 1 ∧ isa = .Rv64
  | .C .ADDI16SP => quad h 1 3 ∧ fld h 11 7 = 2
  | .C .LUI => quad h 1 3 ∧ fld h 11 7 ≠ 2 ∧ h ≠ 0x6081 ∧ h ≠ 0x6281
  | .C .SRLI => quad h 1 4 ∧ fld h 11 10 = 0
  | .C .SRAI => quad h 1 4 ∧ fld h 11 10 = 1
  | .C .SLLI => quad h 2 0
  | .C .LWSP => quad h 2 2
  | .C .LDSP => quad h 2 3 ∧ isa = .Rv64
  | .C .JR => quad h 2 4 ∧ fld h 12 12 = 0 ∧ fld h 6 2 = 0
  | .C .EBREAK => quad h 2 4 ∧ fld h 12 12 = 1 ∧ fld h 11 7 = 0
  | .C .ADD => quad h 2 4 ∧ fld h 12 12 = 1 ∧ fld h 11 7 ≠ 0 ∧ fld h 6 2 ≠ 0
  | op => official16 isa h op

/-- Compressed opcodes for which the decoder accepts exactly the halfwords of the manual. -/
def strict16 : OpcodeKind → Bool
  | .C .ADDI4SPN | .C .ADDIW | .C .ADDI16SP | .C .LUI | .C .SRLI | .C .SRAI | .C .SLLI
  | .C .LWSP | .C .LDSP | .C .JR | .C .EBREAK | .C .ADD => false
  | _ => true

/-- Compressed instructions that exist only on RV64 and are refused on RV32 (`c.addiw` is not among
them: on RV32 its encoding is that of `c.jal`). -/
def gated64c : OpcodeKind → Bool
  | .C .LD | .C .SD | .C .SUBW | .C .ADDW | .C .LDSP | .C .SDSP => true
  | _ => false

/-- The exact set of halfwords and ISAs on which each error is returned. -/
def rejects16 (isa : Isa) (h : Nat) : DecodingError → Prop
  | .IllegalInstruction => h = 0
  | .OnlyRv64Inst => isa = .Rv32 ∧
      (quad h 0 3 ∨ quad h 0 7 ∨ quad h 2 3 ∨ quad h 2 7 ∨
        (quad h 1 4 ∧ fld h 11 10 = 3 ∧ fld h 12 12 = 1 ∧ fld h 6 5 < 2))
  | .InvalidOpcode =>
      fld h 1 0 = 3 ∨ quad h 0 1 ∨ quad h 0 4 ∨ quad h 0 5 ∨ quad h 2 1 ∨ quad h 2 5 ∨
        (quad h 1 4 ∧ fld h 11 10 = 3 ∧ fld h 12 12 = 1 ∧ 2 ≤ fld h 6 5)
  | _ => False

/-! ## Operands -/

/-- The register named by a three-bit field: x8 to x15. -/
def regC (x : Nat) : Nat := 8 + x

/-- Destination register. -/
def rd16 (h : Nat) : OpcodeKind → Option Nat
  | .C .ADDI4SPN | .C .LW | .C .LD => some (regC (fld h 4 2))
  | .C .SRLI | .C .SRAI | .C .ANDI | .C .SUB | .C .XOR | .C .OR | .C .AND | .C .SUBW
  | .C .ADDW => some (regC (fld h 9 7))
  | .C .ADDI | .C .ADDIW | .C .LI | .C .LUI | .C .ADDI16SP | .C .SLLI | .C .LWSP | .C .LDSP
  | .C .MV | .C .ADD => some (fld h 11 7)
  | .Zicfiss .C_SSPUSH => some 1
  | .Zicfiss .C_SSPOPCHK => some 5
  | _ => none

/-- First source register. -/
def rs116 (h : Nat) : OpcodeKind → Option Nat
  | .C .LW | .C .LD | .C .SW | .C .SD | .C .SRLI | .C .SRAI | .C .ANDI | .C .SUB | .C .XOR
  | .C .OR | .C .AND | .C .SUBW | .C .ADDW | .C .BEQZ | .C .BNEZ => some (regC (fld h 9 7))
  | .C .ADDI | .C .ADDIW | .C .ADDI16SP | .C .SLLI | .C .JR | .C .JALR | .C .ADD =>
      some (fld h 11 7)
  | _ => none

/-- Second source register. -/
def rs216 (h : Nat) : OpcodeKind → Option Nat
  | .C .SW | .C .SD | .C .SUB | .C .XOR | .C .OR | .C .AND | .C .SUBW | .C .ADDW =>
      some (regC (fld h 4 2))
  | .C .JR | .C .JALR | .C .MV | .C .ADD | .C .SWSP | .C .SDSP => some (fld h 6 2)
  | _ => none

/-- CI immediate `imm[5] | imm[4:0]`, unsigned. -/
def uimmCI (h : Nat) : Nat := fld h 12 12 * 2 ^ 5 + fld h 6 2
/-- CIW immediate `[5:4|9:6|2|3]` in bits 12..5. -/
def uimmCIW (h : Nat) : Nat :=
  fld h 12 11 * 2 ^ 4 + fld h 10 7 * 2 ^ 6 + fld h 6 6 * 2 ^ 2 + fld h 5 5 * 2 ^ 3
/-- Word load/store offset `[5:3]` in bits 12..10 and `[2|6]` in bits 6..5. -/
def uimmW (h : Nat) : Nat := fld h 12 10 * 2 ^ 3 + fld h 6 6 * 2 ^ 2 + fld h 5 5 * 2 ^ 6
/-- Doubleword load/store offset `[5:3]` in bits 12..10 and `[7:6]` in bits 6..5. -/
def uimmD (h : Nat) : Nat := fld h 12 10 * 2 ^ 3 + fld h 6 5 * 2 ^ 6
/-- Jump offset `[11|4|9:8|10|6|7|3:1|5]` in bits 12..2, sign-extended. -/
def immCJ (h : Nat) : Int :=
  sext 12 (fld h 12 12 * 2 ^ 11 + fld h 11 11 * 2 ^ 4 + fld h 10 9 * 2 ^ 8 + fld h 8 8 * 2 ^ 10
    + fld h 7 7 * 2 ^ 6 + fld h 6 6 * 2 ^ 7 + fld h 5 3 * 2 + fld h 2 2 * 2 ^ 5)
/-- Branch offset `[8|4:3]` in bits 12..10 and `[7:6|2:1|5]` in bits 6..2, sign-extended. -/
def immCB (h : Nat) : Int :=
  sext 9 (fld h 12 12 * 2 ^ 8 + fld h 11 10 * 2 ^ 3 + fld h 6 5 * 2 ^ 6 + fld h 4 3 * 2
    + fld h 2 2 * 2 ^ 5)
/-- `addi16sp` immediate `[9]` in bit 12 and `[4|6|8:7|5]` in bits 6..2, sign-extended. -/
def imm16sp (h : Nat) : Int :=
  sext 10 (fld h 12 12 * 2 ^ 9 + fld h 6 6 * 2 ^ 4 + fld h 5 5 * 2 ^ 6 + fld h 4 3 * 2 ^ 7
    + fld h 2 2 * 2 ^ 5)
/-- `lui` immediate `[17]` in bit 12 and `[16:12]` in bits 6..2, sign-extended. -/
def immCLui (h : Nat) : Int := sext 18 (fld h 12 12 * 2 ^ 17 + fld h 6 2 * 2 ^ 12)
/-- `lwsp` offset `[5]` in bit 12 and `[4:2|7:6]` in bits 6..2. -/
def uimmLwsp (h : Nat) : Nat := fld h 12 12 * 2 ^ 5 + fld h 6 4 * 2 ^ 2 + fld h 3 2 * 2 ^ 6
/-- `ldsp` offset `[5]` in bit 12 and `[4:3|8:6]` in bits 6..2. -/
def uimmLdsp (h : Nat) : Nat := fld h 12 12 * 2 ^ 5 + fld h 6 5 * 2 ^ 3 + fld h 4 2 * 2 ^ 6
/-- `swsp` offset `[5:2|7:6]` in bits 12..7. -/
def uimmSwsp (h : Nat) : Nat := fld h 12 9 * 2 ^ 2 + fld h 8 7 * 2 ^ 6
/-- `sdsp` offset `[5:3|8:6]` in bits 12..7. -/
def uimmSdsp (h : Nat) : Nat := fld h 12 10 * 2 ^ 3 + fld h 9 7 * 2 ^ 6

/-- Immediate. -/
def imm16 (h : Nat) : OpcodeKind → Option Int
  | .C .ADDI4SPN => some (uimmCIW h : Int)
  | .C .LW | .C .SW => some (uimmW h : Int)
  | .C .LD | .C .SD => some (uimmD h : Int)
  | .C .NOP | .C .ADDI | .C .ADDIW | .C .LI | .C .ANDI => some (sext 6 (uimmCI h))
  | .C .SRLI | .C .SRAI | .C .SLLI => some (uimmCI h : Int)
  | .C .JAL | .C .J => some (immCJ h)
  | .C .BEQZ | .C .BNEZ => some (immCB h)
  | .C .ADDI16SP => some (imm16sp h)
  | .C .LUI => some (immCLui h)
  | .C .LWSP => some (uimmLwsp h : Int)
  | .C .LDSP => some (uimmLdsp h : Int)
  | .C .SWSP => some (uimmSwsp h : Int)
  | .C .SDSP => some (uimmSdsp h : Int)
  | _ => none

/-- The `InstFormat` of a compressed opcode. -/
def instFormat16 : OpcodeKind → InstFormat
  | .C .LW | .C .LD => .ClFormat
  | .C .ADDI4SPN => .CiwFormat
  | .C .SW | .C .SD => .CsFormat
  | .C .JAL | .C .J => .CjFormat
  | .C .BEQZ | .C .BNEZ | .C .ANDI | .C .SRLI | .C .SRAI => .CbFormat
  | .C .LI | .C .ADDI | .C .ADDIW | .C .ADDI16SP | .C .LUI | .C .LDSP | .C .SLLI | .C .LWSP =>
      .CiFormat
  | .C .SUB | .C .XOR | .C .OR | .C .AND | .C .SUBW | .C .ADDW => .CaFormat
  | .C .SDSP | .C .SWSP => .CssFormat
  | .C .JR | .C .JALR | .C .MV | .C .ADD => .CrFormat
  | _ => .NoOperand

/-- The instruction value that a halfword of opcode `op` denotes. -/
def value16 (h : Nat) (op : OpcodeKind) : Instruction where
  opc := op
  rd := rd16 h op
  rs1 := rs116 h op
  rs2 := rs216 h op
  imm := imm16 h op
  instFormat := instFormat16 op
  isCompressed := true

end Raki.Spec
