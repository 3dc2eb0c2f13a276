import Verif.Props.Total
import Verif.Props.Operands
/-!
# The public operand parsers, called with any opcode

`parse_rd`, `parse_rs1`, `parse_rs2` and `parse_imm` are public and may be called with an opcode that is
not the one of the word.
-/

namespace Raki

open Spec

/-- C51, 32-bit.  Whatever the word and whatever 32-bit opcode it is asked for, each parser returns the
operand that an instruction of that opcode's format has in the word. -/
theorem C51_parsers32 (w : BitVec 32) (op : OpcodeKind) (isa : Isa) (r : Row) (h : row32 op = some r) :
    U32.parse_rd w op = .ok (rd32 w.toNat r.fmt) ∧ U32.parse_rs1 w op = .ok (rs132 w.toNat r.fmt) ∧
    U32.parse_rs2 w op = .ok (rs232 w.toNat r.fmt) ∧
    U32.parse_imm w op isa = .ok (imm32 isa w.toNat r.fmt) :=
  ⟨parse_rd32_eq w op r h, parse_rs132_eq w op r h, parse_rs232_eq w op r h, parse_imm32_eq w isa op r h⟩

/-- C51, 32-bit.  The opcodes covered are all but the compressed ones. -/
theorem C51_opcodes32 (op : OpcodeKind) : (∃ r, row32 op = some r) ↔ (∀ o, op ≠ .C o) ∧
    op ≠ .Zicfiss .C_SSPUSH ∧ op ≠ .Zicfiss .C_SSPOPCHK := by
  rcases op with o | o | o | o | o | o | o | o | o | o
  case C => simp [row32]
  all_goals cases o <;> simp [row32]

/-- C51, 16-bit.  Likewise for every halfword and every compressed opcode. -/
theorem C51_parsers16 (w : BitVec 16) (op : OpcodeKind) (isa : Isa)
    (h : (∃ o, op = .C o) ∨ op = .Zicfiss .C_SSPUSH ∨ op = .Zicfiss .C_SSPOPCHK) :
    U16.parse_rd w op = .ok (rd16 w.toNat op) ∧ U16.parse_rs1 w op = .ok (rs116 w.toNat op) ∧
    U16.parse_rs2 w op = .ok (rs216 w.toNat op) ∧ U16.parse_imm w op isa = .ok (imm16 w.toNat op) := by
  have hc : isC op := by
    rcases h with ⟨o, rfl⟩ | rfl | rfl <;> trivial
  exact ⟨parse_rd16_eq w op hc, parse_rs116_eq w op hc, parse_rs216_eq w op hc, parse_imm16_eq w isa op hc⟩

/-- C51.  The ISA passed to `parse_imm` matters only for the shifts by an immediate. -/
theorem C51_parse_imm_isa (w : BitVec 32) (op : OpcodeKind) (h1 : op ≠ .BaseI .SLLI)
    (h2 : op ≠ .BaseI .SRLI) (h3 : op ≠ .BaseI .SRAI) :
    U32.parse_imm w op .Rv32 = U32.parse_imm w op .Rv64 := by
  rcases op with o | o | o | o | o | o | o | o | o | o
  case BaseI =>
    obtain ⟨r, hr⟩ : ∃ r, row32 (.BaseI o) = some r := by cases o <;> exact ⟨_, rfl⟩
    rw [parse_imm32_eq w _ _ r hr, parse_imm32_eq w _ _ r hr]
    revert hr
    cases o
    all_goals first
      | exact absurd rfl h1
      | exact absurd rfl h2
      | exact absurd rfl h3
      | (intro hr; injection hr with hr; subst hr; rfl)
  all_goals rfl

/-- C51.  For those it matters exactly when bit 25 of the word is set. -/
theorem C51_parse_imm_isa_shift (w : BitVec 32) (op : OpcodeKind)
    (h : op = .BaseI .SLLI ∨ op = .BaseI .SRLI ∨ op = .BaseI .SRAI) :
    U32.parse_imm w op .Rv32 = U32.parse_imm w op .Rv64 ↔ fld w.toNat 25 25 = 0 := by
  have key : (fld w.toNat 24 20 : Int) = (fld w.toNat 25 20 : Int) ↔ fld w.toNat 25 25 = 0 := by
    unfold fld
    omega
  obtain ⟨r, hr, hf⟩ : ∃ r, row32 op = some r ∧ r.fmt = .ShX := by
    rcases h with rfl | rfl | rfl <;> exact ⟨_, rfl, rfl⟩
  rw [parse_imm32_eq w _ _ r hr, parse_imm32_eq w _ _ r hr, hf, ← key]
  simp only [imm32, RustM.ok.injEq, Option.some.injEq]

/-- C51.  The ISA never matters to the 16-bit immediate parser. -/
theorem C51_parse_imm_isa16 (w : BitVec 16) (op : OpcodeKind) (isa isa' : Isa) :
    U16.parse_imm w op isa = U16.parse_imm w op isa' := by
  cases isa <;> cases isa' <;> rfl

-- the word of `addi ra, zero, 5` asked for the operands of a store
example : U32.parse_rs2 0x00500093 (.BaseI .SW) = .ok (some 5) ∧
    U32.parse_imm 0x00500093 (.BaseI .SW) .Rv64 = .ok (some 1) := ⟨rfl, rfl⟩
example : U16.parse_rd 0x4501 (.C .LW) = .ok (some 8) := rfl
example : U32.parse_imm 0x02000013 (.BaseI .SLLI) .Rv32 ≠ U32.parse_imm 0x02000013 (.BaseI .SLLI) .Rv64 := by
  decide

end Raki
