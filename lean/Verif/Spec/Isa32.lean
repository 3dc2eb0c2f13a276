import Verif.Model.Rust
import Verif.Model.Types
import Verif.Spec.Bits
/-!
# Specification of the 32-bit encodings

Written from the RISC-V unprivileged manual (RV32I/RV64I, M, A, Zifencei, Zicsr, Zicntr, Zicboz,
Zicfiss) and the privileged manual.  From the model only the public data types are used (`Isa`,
`OpcodeKind`, `Instruction`, `InstFormat`, `DecodingError`), none of its functions.
-/

namespace Raki.Spec

/-- Encoding formats of 32-bit instructions.  Beyond the six standard formats: shift by immediate with
XLEN-dependent (`ShX`) and 5-bit (`ShW`) amount, AMOs, load-reserved, fence, cache-block operations,
CSR access with register / immediate, shadow-stack push / pop / read / swap, counter reads, operand-less
system instructions, sfence.vma. -/
inductive Fmt32 where
  | R | I | S | B | U | J | ShX | ShW | Amo | Lr | Fence | Cbo | CsrR | CsrI
  | SsPush | SsPop | SsRd | SsAmo | Cntr | Sys | SfVma
  deriving DecidableEq, Repr

/-- One row of the opcode tables: format, major opcode (bits 6..0), funct3 (bits 14..12), and the
fixed value at the top of the word: funct7 (bits 31..25) for `R`, `ShX`, `ShW`, `SsPush`, `SfVma`;
funct5 (bits 31..27) for `Amo`, `Lr`, `SsAmo`; the 12-bit field (bits 31..20) for `Cbo`, `SsPop`,
`SsRd`, `Cntr`, `Sys`; unused otherwise. -/
structure Row where
  fmt : Fmt32
  major : Nat
  f3 : Nat
  code : Nat

/-- The opcode tables of the manuals; `none` for compressed opcodes. -/
def row32 : OpcodeKind → Option Row
  | .BaseI .LUI => some ⟨.U, 0x37, 0, 0x00⟩
  | .BaseI .AUIPC => some ⟨.U, 0x17, 0, 0x00⟩
  | .BaseI .JAL => some ⟨.J, 0x6f, 0, 0x00⟩
  | .BaseI .JALR => some ⟨.I, 0x67, 0, 0x00⟩
  | .BaseI .BEQ => some ⟨.B, 0x63, 0, 0x00⟩
  | .BaseI .BNE => some ⟨.B, 0x63, 1, 0x00⟩
  | .BaseI .BLT => some ⟨.B, 0x63, 4, 0x00⟩
  | .BaseI .BGE => some ⟨.B, 0x63, 5, 0x00⟩
  | .BaseI .BLTU => some ⟨.B, 0x63, 6, 0x00⟩
  | .BaseI .BGEU => some ⟨.B, 0x63, 7, 0x00⟩
  | .BaseI .LB => some ⟨.I, 0x03, 0, 0x00⟩
  | .BaseI .LH => some ⟨.I, 0x03, 1, 0x00⟩
  | .BaseI .LW => some ⟨.I, 0x03, 2, 0x00⟩
  | .BaseI .LBU => some ⟨.I, 0x03, 4, 0x00⟩
  | .BaseI .LHU => some ⟨.I, 0x03, 5, 0x00⟩
  | .BaseI .SB => some ⟨.S, 0x23, 0, 0x00⟩
  | .BaseI .SH => some ⟨.S, 0x23, 1, 0x00⟩
  | .BaseI .SW => some ⟨.S, 0x23, 2, 0x00⟩
  | .BaseI .ADDI => some ⟨.I, 0x13, 0, 0x00⟩
  | .BaseI .SLTI => some ⟨.I, 0x13, 2, 0x00⟩
  | .BaseI .SLTIU => some ⟨.I, 0x13, 3, 0x00⟩
  | .BaseI .XORI => some ⟨.I, 0x13, 4, 0x00⟩
  | .BaseI .ORI => some ⟨.I, 0x13, 6, 0x00⟩
  | .BaseI .ANDI => some ⟨.I, 0x13, 7, 0x00⟩
  | .BaseI .SLLI => some ⟨.ShX, 0x13, 1, 0x00⟩
  | .BaseI .SRLI => some ⟨.ShX, 0x13, 5, 0x00⟩
  | .BaseI .SRAI => some ⟨.ShX, 0x13, 5, 0x20⟩
  | .BaseI .ADD => some ⟨.R, 0x33, 0, 0x00⟩
  | .BaseI .SUB => some ⟨.R, 0x33, 0, 0x20⟩
  | .BaseI .SLL => some ⟨.R, 0x33, 1, 0x00⟩
  | .BaseI .SLT => some ⟨.R, 0x33, 2, 0x00⟩
  | .BaseI .SLTU => some ⟨.R, 0x33, 3, 0x00⟩
  | .BaseI .XOR => some ⟨.R, 0x33, 4, 0x00⟩
  | .BaseI .SRL => some ⟨.R, 0x33, 5, 0x00⟩
  | .BaseI .SRA => some ⟨.R, 0x33, 5, 0x20⟩
  | .BaseI .OR => some ⟨.R, 0x33, 6, 0x00⟩
  | .BaseI .AND => some ⟨.R, 0x33, 7, 0x00⟩
  | .BaseI .ECALL => some ⟨.Sys, 0x73, 0, 0x00⟩
  | .BaseI .EBREAK => some ⟨.Sys, 0x73, 0, 0x01⟩
  | .BaseI .LWU => some ⟨.I, 0x03, 6, 0x00⟩
  | .BaseI .LD => some ⟨.I, 0x03, 3, 0x00⟩
  | .BaseI .SD => some ⟨.S, 0x23, 3, 0x00⟩
  | .BaseI .ADDIW => some ⟨.I, 0x1b, 0, 0x00⟩
  | .BaseI .SLLIW => some ⟨.ShW, 0x1b, 1, 0x00⟩
  | .BaseI .SRLIW => some ⟨.ShW, 0x1b, 5, 0x00⟩
  | .BaseI .SRAIW => some ⟨.ShW, 0x1b, 5, 0x20⟩
  | .BaseI .ADDW => some ⟨.R, 0x3b, 0, 0x00⟩
  | .BaseI .SUBW => some ⟨.R, 0x3b, 0, 0x20⟩
  | .BaseI .SLLW => some ⟨.R, 0x3b, 1, 0x00⟩
  | .BaseI .SRLW => some ⟨.R, 0x3b, 5, 0x00⟩
  | .BaseI .SRAW => some ⟨.R, 0x3b, 5, 0x20⟩
  | .M .MUL => some ⟨.R, 0x33, 0, 0x01⟩
  | .M .MULH => some ⟨.R, 0x33, 1, 0x01⟩
  | .M .MULHSU => some ⟨.R, 0x33, 2, 0x01⟩
  | .M .MULHU => some ⟨.R, 0x33, 3, 0x01⟩
  | .M .DIV => some ⟨.R, 0x33, 4, 0x01⟩
  | .M .DIVU => some ⟨.R, 0x33, 5, 0x01⟩
  | .M .REM => some ⟨.R, 0x33, 6, 0x01⟩
  | .M .REMU => some ⟨.R, 0x33, 7, 0x01⟩
  | .M .MULW => some ⟨.R, 0x3b, 0, 0x01⟩
  | .M .DIVW => some ⟨.R, 0x3b, 4, 0x01⟩
  | .M .DIVUW => some ⟨.R, 0x3b, 5, 0x01⟩
  | .M .REMW => some ⟨.R, 0x3b, 6, 0x01⟩
  | .M .REMUW => some ⟨.R, 0x3b, 7, 0x01⟩
  | .A .LR_W => some ⟨.Lr, 0x2f, 2, 0x02⟩
  | .A .SC_W => some ⟨.Amo, 0x2f, 2, 0x03⟩
  | .A .AMOSWAP_W => some ⟨.Amo, 0x2f, 2, 0x01⟩
  | .A .AMOADD_W => some ⟨.Amo, 0x2f, 2, 0x00⟩
  | .A .AMOXOR_W => some ⟨.Amo, 0x2f, 2, 0x04⟩
  | .A .AMOAND_W => some ⟨.Amo, 0x2f, 2, 0x0c⟩
  | .A .AMOOR_W => some ⟨.Amo, 0x2f, 2, 0x08⟩
  | .A .AMOMIN_W => some ⟨.Amo, 0x2f, 2, 0x10⟩
  | .A .AMOMAX_W => some ⟨.Amo, 0x2f, 2, 0x14⟩
  | .A .AMOMINU_W => some ⟨.Amo, 0x2f, 2, 0x18⟩
  | .A .AMOMAXU_W => some ⟨.Amo, 0x2f, 2, 0x1c⟩
  | .A .LR_D => some ⟨.Lr, 0x2f, 3, 0x02⟩
  | .A .SC_D => some ⟨.Amo, 0x2f, 3, 0x03⟩
  | .A .AMOSWAP_D => some ⟨.Amo, 0x2f, 3, 0x01⟩
  | .A .AMOADD_D => some ⟨.Amo, 0x2f, 3, 0x00⟩
  | .A .AMOXOR_D => some ⟨.Amo, 0x2f, 3, 0x04⟩
  | .A .AMOAND_D => some ⟨.Amo, 0x2f, 3, 0x0c⟩
  | .A .AMOOR_D => some ⟨.Amo, 0x2f, 3, 0x08⟩
  | .A .AMOMIN_D => some ⟨.Amo, 0x2f, 3, 0x10⟩
  | .A .AMOMAX_D => some ⟨.Amo, 0x2f, 3, 0x14⟩
  | .A .AMOMINU_D => some ⟨.Amo, 0x2f, 3, 0x18⟩
  | .A .AMOMAXU_D => some ⟨.Amo, 0x2f, 3, 0x1c⟩
  | .Zifencei .FENCE => some ⟨.Fence, 0x0f, 0, 0x00⟩
  | .Zicboz .CBO_ZERO => some ⟨.Cbo, 0x0f, 2, 0x04⟩
  | .Zicsr .CSRRW => some ⟨.CsrR, 0x73, 1, 0x00⟩
  | .Zicsr .CSRRS => some ⟨.CsrR, 0x73, 2, 0x00⟩
  | .Zicsr .CSRRC => some ⟨.CsrR, 0x73, 3, 0x00⟩
  | .Zicsr .CSRRWI => some ⟨.CsrI, 0x73, 5, 0x00⟩
  | .Zicsr .CSRRSI => some ⟨.CsrI, 0x73, 6, 0x00⟩
  | .Zicsr .CSRRCI => some ⟨.CsrI, 0x73, 7, 0x00⟩
  | .Zicfiss .SSPUSH => some ⟨.SsPush, 0x73, 4, 0x67⟩
  | .Zicfiss .SSPOPCHK => some ⟨.SsPop, 0x73, 4, 0xcdc⟩
  | .Zicfiss .SSRDP => some ⟨.SsRd, 0x73, 4, 0xcdc⟩
  | .Zicfiss .SSAMOSWAP_W => some ⟨.SsAmo, 0x2f, 2, 0x09⟩
  | .Zicfiss .SSAMOSWAP_D => some ⟨.SsAmo, 0x2f, 3, 0x09⟩
  | .Zicntr .RDCYCLE => some ⟨.Cntr, 0x73, 2, 0xc00⟩
  | .Zicntr .RDTIME => some ⟨.Cntr, 0x73, 2, 0xc01⟩
  | .Zicntr .RDINSTRET => some ⟨.Cntr, 0x73, 2, 0xc02⟩
  | .Zicntr .RDCYCLE_H => some ⟨.Cntr, 0x73, 2, 0xc80⟩
  | .Zicntr .RDTIME_H => some ⟨.Cntr, 0x73, 2, 0xc81⟩
  | .Zicntr .RDINSTRET_H => some ⟨.Cntr, 0x73, 2, 0xc82⟩
  | .Priv .SRET => some ⟨.Sys, 0x73, 0, 0x102⟩
  | .Priv .MRET => some ⟨.Sys, 0x73, 0, 0x302⟩
  | .Priv .WFI => some ⟨.Sys, 0x73, 0, 0x105⟩
  | .Priv .SFENCE_VMA => some ⟨.SfVma, 0x73, 0, 0x09⟩
  | .C _ => none
  | .Zicfiss .C_SSPUSH => none
  | .Zicfiss .C_SSPOPCHK => none

/-- Instructions that exist only on RV64 and that the decoder refuses on RV32. -/
def gated64 : OpcodeKind → Bool
  | .BaseI .LWU | .BaseI .LD | .BaseI .SD | .BaseI .ADDIW | .BaseI .SLLIW | .BaseI .SRLIW
  | .BaseI .SRAIW | .BaseI .ADDW | .BaseI .SUBW | .BaseI .SLLW | .BaseI .SRLW | .BaseI .SRAW
  | .M .MULW | .M .DIVW | .M .DIVUW | .M .REMW | .M .REMUW
  | .A .LR_D | .A .SC_D | .A .AMOSWAP_D | .A .AMOADD_D | .A .AMOXOR_D | .A .AMOAND_D
  | .A .AMOOR_D | .A .AMOMIN_D | .A .AMOMAX_D | .A .AMOMINU_D | .A .AMOMAXU_D => true
  | _ => false

/-- The manuals' assignment of 32-bit instructions to ISAs. -/
def existsIn (isa : Isa) (op : OpcodeKind) : Prop :=
  match op with
  | .Zicfiss .SSAMOSWAP_D => isa = .Rv64
  | .Zicntr .RDCYCLE_H | .Zicntr .RDTIME_H | .Zicntr .RDINSTRET_H => isa = .Rv32
  | op => gated64 op = true → isa = .Rv64

/-- The word has the fixed bits of the row. -/
def fixed32 (isa : Isa) (w : Nat) (r : Row) : Prop :=
  fld w 6 0 = r.major ∧
  match r.fmt with
  | .U | .J => True
  | .I | .S | .B | .CsrR | .CsrI | .Fence => fld w 14 12 = r.f3
  | .R | .ShW => fld w 14 12 = r.f3 ∧ fld w 31 25 = r.code
  | .ShX => fld w 14 12 = r.f3 ∧
      (match isa with
       | .Rv32 => fld w 31 25 = r.code
       | .Rv64 => fld w 31 26 = r.code / 2)
  | .Amo | .SsAmo => fld w 14 12 = r.f3 ∧ fld w 31 27 = r.code
  | .Lr => fld w 14 12 = r.f3 ∧ fld w 31 27 = r.code ∧ fld w 24 20 = 0
  | .Cbo => fld w 14 12 = r.f3 ∧ fld w 31 20 = r.code ∧ fld w 11 7 = 0
  | .SsPush => fld w 14 12 = r.f3 ∧ fld w 31 25 = r.code ∧ fld w 11 7 = 0 ∧ fld w 19 15 = 0 ∧
      (fld w 24 20 = 1 ∨ fld w 24 20 = 5)
  | .SsPop => fld w 14 12 = r.f3 ∧ fld w 31 20 = r.code ∧ fld w 11 7 = 0 ∧
      (fld w 19 15 = 1 ∨ fld w 19 15 = 5)
  | .SsRd => fld w 14 12 = r.f3 ∧ fld w 31 20 = r.code ∧ fld w 19 15 = 0 ∧ fld w 11 7 ≠ 0
  | .Cntr => fld w 14 12 = r.f3 ∧ fld w 31 20 = r.code ∧ fld w 19 15 = 0
  | .Sys => fld w 14 12 = r.f3 ∧ fld w 31 20 = r.code ∧ fld w 19 15 = 0 ∧ fld w 11 7 = 0
  | .SfVma => fld w 14 12 = r.f3 ∧ fld w 31 25 = r.code ∧ fld w 11 7 = 0

/-- The CSR numbers of cycle, time, instret and their upper halves. -/
def counterCsr (c : Nat) : Prop :=
  c = 0xc00 ∨ c = 0xc01 ∨ c = 0xc02 ∨ c = 0xc80 ∨ c = 0xc81 ∨ c = 0xc82

instance (c : Nat) : Decidable (counterCsr c) := by unfold counterCsr; infer_instance

/-- The word is an encoding of `op` according to the manuals.  `csrrs` on a counter CSR is not listed
under `csrrs`: its name is that of the counter-read pseudo-instruction. -/
def official32 (isa : Isa) (w : Nat) (op : OpcodeKind) : Prop :=
  existsIn isa op ∧
  (op = .Zicsr .CSRRS → ¬ counterCsr (fld w 31 20)) ∧
  match row32 op with
  | none => False
  | some r => fixed32 isa w r

/-- The exact acceptance set of the decoder: as in the manuals, except for the opcodes listed, whose
rows say which bits are really examined. -/
def accepts32 (isa : Isa) (w : Nat) (op : OpcodeKind) : Prop :=
  (gated64 op = true → isa = .Rv64) ∧
  match op with
  | .BaseI .JALR => fld w 6 0 = 0x67
  | .BaseI .SLL => fld w 6 0 = 0x33 ∧ fld w 14 12 = 1 ∧ fld w 31 25 ≠ 1
  | .BaseI .SLT => fld w 6 0 = 0x33 ∧ fld w 14 12 = 2 ∧ fld w 31 25 ≠ 1
  | .BaseI .SLTU => fld w 6 0 = 0x33 ∧ fld w 14 12 = 3 ∧ fld w 31 25 ≠ 1
  | .BaseI .XOR => fld w 6 0 = 0x33 ∧ fld w 14 12 = 4 ∧ fld w 31 25 ≠ 1
  | .BaseI .OR => fld w 6 0 = 0x33 ∧ fld w 14 12 = 6 ∧ fld w 31 25 ≠ 1
  | .BaseI .AND => fld w 6 0 = 0x33 ∧ fld w 14 12 = 7 ∧ fld w 31 25 ≠ 1
  | .BaseI .SLLIW => fld w 6 0 = 0x1b ∧ fld w 14 12 = 1
  | .BaseI .SLLW => fld w 6 0 = 0x3b ∧ fld w 14 12 = 1 ∧
      (fld w 31 25 = 0 ∨ fld w 31 25 = 0x20)
  | .BaseI .ECALL => fld w 6 0 = 0x73 ∧ fld w 14 12 = 0 ∧ fld w 31 20 = 0
  | .BaseI .EBREAK => fld w 6 0 = 0x73 ∧ fld w 14 12 = 0 ∧ fld w 31 20 = 1
  | .A .LR_W => fld w 6 0 = 0x2f ∧ fld w 14 12 = 2 ∧ fld w 31 27 = 2
  | .A .LR_D => fld w 6 0 = 0x2f ∧ fld w 14 12 = 3 ∧ fld w 31 27 = 2
  | .Zicsr .CSRRS => fld w 6 0 = 0x73 ∧ fld w 14 12 = 2 ∧ ¬ counterCsr (fld w 31 20)
  | .Zicfiss .SSPUSH => fld w 6 0 = 0x73 ∧ fld w 14 12 = 4 ∧
      (fld w 31 20 = 0xce1 ∨ fld w 31 20 = 0xce5)
  | .Zicfiss .SSPOPCHK => fld w 6 0 = 0x73 ∧ fld w 14 12 = 4 ∧ fld w 31 20 = 0xcdc ∧
      fld w 19 15 ≠ 0
  | .Zicfiss .SSRDP => fld w 6 0 = 0x73 ∧ fld w 14 12 = 4 ∧ fld w 31 20 = 0xcdc ∧
      fld w 19 15 = 0
  | .Zicntr .RDCYCLE => fld w 6 0 = 0x73 ∧ fld w 14 12 = 2 ∧ fld w 31 20 = 0xc00
  | .Zicntr .RDTIME => fld w 6 0 = 0x73 ∧ fld w 14 12 = 2 ∧ fld w 31 20 = 0xc01
  | .Zicntr .RDINSTRET => fld w 6 0 = 0x73 ∧ fld w 14 12 = 2 ∧ fld w 31 20 = 0xc02
  | .Zicntr .RDCYCLE_H => fld w 6 0 = 0x73 ∧ fld w 14 12 = 2 ∧ fld w 31 20 = 0xc80
  | .Zicntr .RDTIME_H => fld w 6 0 = 0x73 ∧ fld w 14 12 = 2 ∧ fld w 31 20 = 0xc81
  | .Zicntr .RDINSTRET_H => fld w 6 0 = 0x73 ∧ fld w 14 12 = 2 ∧ fld w 31 20 = 0xc82
  | .Priv .SFENCE_VMA => fld w 6 0 = 0x73 ∧ fld w 14 12 = 0 ∧ fld w 31 25 = 9
  | op =>
    match row32 op with
    | none => False
    | some r => fixed32 isa w r

/-- Opcodes for which the decoder accepts exactly the words the manuals assign to them, in exactly the
ISAs that have them. -/
def strict32 : OpcodeKind → Bool
  | .BaseI .JALR | .BaseI .SLL | .BaseI .SLT | .BaseI .SLTU | .BaseI .XOR | .BaseI .OR
  | .BaseI .AND | .BaseI .SLLIW | .BaseI .SLLW | .BaseI .ECALL | .BaseI .EBREAK
  | .A .LR_W | .A .LR_D
  | .Zicfiss .SSPUSH | .Zicfiss .SSPOPCHK | .Zicfiss .SSRDP | .Zicfiss .SSAMOSWAP_D
  | .Zicntr _ | .Priv .SFENCE_VMA => false
  | _ => true

/-- The exact set of words and ISAs on which each error is returned. -/
def rejects32 (isa : Isa) (w : Nat) : DecodingError → Prop
  | .InvalidOpcode =>
      fld w 6 0 ∉ [0x03, 0x0f, 0x13, 0x17, 0x1b, 0x23, 0x2f, 0x33, 0x37, 0x3b, 0x63, 0x67, 0x6f, 0x73]
      ∨ (fld w 6 0 = 0x0f ∧ fld w 14 12 = 2 ∧ (fld w 31 20 ≠ 4 ∨ fld w 11 7 ≠ 0))
      ∨ (fld w 6 0 = 0x73 ∧ fld w 14 12 = 4 ∧ fld w 31 20 ∉ [0xce1, 0xce5, 0xcdc])
  | .InvalidFunct3 =>
      (fld w 6 0 = 0x63 ∧ fld w 14 12 ∈ [2, 3])
      ∨ (fld w 6 0 = 0x03 ∧ fld w 14 12 = 7)
      ∨ (fld w 6 0 = 0x23 ∧ 4 ≤ fld w 14 12)
      ∨ (fld w 6 0 = 0x1b ∧ fld w 14 12 ∉ [0, 1, 5])
      ∨ (fld w 6 0 = 0x3b ∧ fld w 31 25 ∈ [0, 0x20] ∧ fld w 14 12 ∉ [0, 1, 5])
      ∨ (fld w 6 0 = 0x3b ∧ fld w 31 25 = 1 ∧ fld w 14 12 ∈ [1, 2, 3])
      ∨ (fld w 6 0 = 0x2f ∧ fld w 14 12 ∉ [2, 3] ∧
          fld w 31 27 ∈ [0, 1, 2, 3, 4, 8, 9, 0xc, 0x10, 0x14, 0x18, 0x1c])
  | .InvalidFunct5 =>
      fld w 6 0 = 0x73 ∧ fld w 14 12 = 0 ∧ fld w 31 25 = 0 ∧ 2 ≤ fld w 24 20
  | .InvalidFunct6 =>
      isa = .Rv64 ∧ fld w 6 0 = 0x13 ∧
        ((fld w 14 12 = 1 ∧ fld w 31 26 ≠ 0) ∨ (fld w 14 12 = 5 ∧ fld w 31 26 ∉ [0, 0x10]))
  | .InvalidFunct7 =>
      (isa = .Rv32 ∧ fld w 6 0 = 0x13 ∧
        ((fld w 14 12 = 1 ∧ fld w 31 25 ≠ 0) ∨ (fld w 14 12 = 5 ∧ fld w 31 25 ∉ [0, 0x20])))
      ∨ (fld w 6 0 = 0x33 ∧ fld w 14 12 ∈ [0, 5] ∧ fld w 31 25 ∉ [0, 1, 0x20])
      ∨ (fld w 6 0 = 0x1b ∧ fld w 14 12 = 5 ∧ fld w 31 25 ∉ [0, 0x20])
      ∨ (fld w 6 0 = 0x73 ∧ fld w 14 12 = 0 ∧ fld w 31 25 ∉ [0, 9] ∧
          w ∉ [0x10200073, 0x30200073, 0x10500073])
  | .UnknownExtension =>
      (fld w 6 0 = 0x0f ∧ fld w 14 12 ∉ [0, 2])
      ∨ (fld w 6 0 = 0x2f ∧
          fld w 31 27 ∉ [0, 1, 2, 3, 4, 8, 9, 0xc, 0x10, 0x14, 0x18, 0x1c])
      ∨ (fld w 6 0 = 0x3b ∧ fld w 31 25 ∉ [0, 1, 0x20])
  | .OnlyRv64Inst => isa = .Rv32 ∧ ∃ op, gated64 op = true ∧ accepts32 .Rv64 w op
  | .IllegalInstruction => False
  | .Not16BitInst => False
  | .Not32BitInst => False

/-- The bit fields (highest and lowest bit) on which recognising `op` depends. -/
def examined32 (isa : Isa) (op : OpcodeKind) : List (Nat × Nat) :=
  match op with
  | .BaseI .LUI | .BaseI .AUIPC | .BaseI .JAL | .BaseI .JALR => [(6, 0)]
  | .BaseI .SLLIW => [(6, 0), (14, 12)]
  | .BaseI .SLLI | .BaseI .SRLI | .BaseI .SRAI =>
    (match isa with
     | .Rv32 => [(6, 0), (14, 12), (31, 25)]
     | .Rv64 => [(6, 0), (14, 12), (31, 26)])
  | .BaseI .ECALL | .BaseI .EBREAK | .Zicsr .CSRRS | .Zicntr _ | .Zicfiss .SSPUSH =>
    [(6, 0), (14, 12), (31, 20)]
  | .Zicfiss .SSPOPCHK | .Zicfiss .SSRDP => [(6, 0), (14, 12), (31, 20), (19, 15)]
  | .Zicfiss .SSAMOSWAP_W | .Zicfiss .SSAMOSWAP_D | .A _ => [(6, 0), (14, 12), (31, 27)]
  | .Zicboz _ => [(6, 0), (14, 12), (31, 20), (11, 7)]
  | .Priv .SFENCE_VMA => [(6, 0), (14, 12), (31, 25)]
  | .Priv _ => [(6, 0), (14, 12), (31, 20), (19, 15), (11, 7)]
  | .Zifencei _ | .Zicsr _ => [(6, 0), (14, 12)]
  | op =>
    match row32 op with
    | some ⟨.R, _, _, _⟩ | some ⟨.ShW, _, _, _⟩ => [(6, 0), (14, 12), (31, 25)]
    | _ => [(6, 0), (14, 12)]

/-- The bit fields that carry the operands reported for each format. -/
def operandFields32 (isa : Isa) : Fmt32 → List (Nat × Nat)
  | .R => [(11, 7), (19, 15), (24, 20)]
  | .I => [(11, 7), (19, 15), (31, 20)]
  | .S | .B => [(11, 7), (19, 15), (24, 20), (31, 25)]
  | .U | .J => [(11, 7), (31, 12)]
  | .ShX => (match isa with
    | .Rv32 => [(11, 7), (19, 15), (24, 20)]
    | .Rv64 => [(11, 7), (19, 15), (25, 20)])
  | .ShW => [(11, 7), (19, 15), (24, 20)]
  | .Amo => [(11, 7), (19, 15), (24, 20), (26, 25)]
  | .Lr => [(11, 7), (19, 15), (26, 25)]
  | .Fence => [(11, 7), (19, 15), (31, 20)]
  | .Cbo => [(19, 15)]
  | .CsrR | .CsrI => [(11, 7), (19, 15), (31, 20)]
  | .SsPush => [(24, 20)]
  | .SsPop => [(19, 15)]
  | .SsRd => [(11, 7)]
  | .SsAmo => [(11, 7), (19, 15), (24, 20)]
  | .Cntr => [(11, 7)]
  | .Sys => []
  | .SfVma => [(19, 15), (24, 20)]

/-- Two bit fields share no bit. -/
def disjointFields (p q : Nat × Nat) : Bool := decide (p.1 < q.2) || decide (q.1 < p.2)

/-! ## Operands -/

/-- Destination register of a word, by format. -/
def rd32 (w : Nat) : Fmt32 → Option Nat
  | .R | .I | .U | .J | .ShX | .ShW | .Amo | .Lr | .Fence | .CsrR | .CsrI | .SsRd | .SsAmo
  | .Cntr => some (fld w 11 7)
  | .SsPush | .SsPop => some 0
  | .S | .B | .Cbo | .Sys | .SfVma => none

/-- First source register of a word, by format. -/
def rs132 (w : Nat) : Fmt32 → Option Nat
  | .R | .I | .S | .B | .ShX | .ShW | .Amo | .Lr | .Fence | .Cbo | .CsrR | .SsPop | .SsAmo
  | .SfVma => some (fld w 19 15)
  | .SsPush => some 0
  | .U | .J | .CsrI | .SsRd | .Cntr | .Sys => none

/-- Second source register of a word, by format; CSR instructions report the CSR number here. -/
def rs232 (w : Nat) : Fmt32 → Option Nat
  | .R | .S | .B | .Amo | .SsPush | .SsAmo | .SfVma => some (fld w 24 20)
  | .CsrR | .CsrI => some (fld w 31 20)
  | .I | .U | .J | .ShX | .ShW | .Lr | .Fence | .Cbo | .SsPop | .SsRd | .Cntr | .Sys => none

/-- I-type immediate: bits 31..20, sign-extended. -/
def immI (w : Nat) : Int := sext 12 (fld w 31 20)
/-- S-type immediate: bits 31..25 and 11..7, sign-extended. -/
def immS (w : Nat) : Int := sext 12 (fld w 31 25 * 2 ^ 5 + fld w 11 7)
/-- B-type immediate: bit 31, bit 7, bits 30..25, bits 11..8, zero, sign-extended. -/
def immB (w : Nat) : Int :=
  sext 13 (fld w 31 31 * 2 ^ 12 + fld w 7 7 * 2 ^ 11 + fld w 30 25 * 2 ^ 5 + fld w 11 8 * 2)
/-- U-type immediate, reported as the raw 20-bit field (not shifted). -/
def immU (w : Nat) : Int := fld w 31 12
/-- J-type immediate: bit 31, bits 19..12, bit 20, bits 30..21, zero, sign-extended. -/
def immJ (w : Nat) : Int :=
  sext 21 (fld w 31 31 * 2 ^ 20 + fld w 19 12 * 2 ^ 12 + fld w 20 20 * 2 ^ 11 + fld w 30 21 * 2)

/-- Immediate of a word, by format: shift amount, aq/rl bits, fence fm/pred/succ bits and the CSR
zero-extended immediate are reported here too. -/
def imm32 (isa : Isa) (w : Nat) : Fmt32 → Option Int
  | .I => some (immI w)
  | .S => some (immS w)
  | .B => some (immB w)
  | .U => some (immU w)
  | .J => some (immJ w)
  | .ShX => (match isa with
    | .Rv32 => some (fld w 24 20 : Int)
    | .Rv64 => some (fld w 25 20 : Int))
  | .ShW => some (fld w 24 20 : Int)
  | .Amo | .Lr => some (fld w 26 25 : Int)
  | .Fence => some (fld w 31 20 : Int)
  | .CsrI => some (fld w 19 15 : Int)
  | .R | .Cbo | .CsrR | .SsPush | .SsPop | .SsRd | .SsAmo | .Cntr | .Sys | .SfVma => none

/-- The `InstFormat` reported for an opcode of the given format. -/
def instFormat32 (op : OpcodeKind) : Fmt32 → InstFormat
  | .R => (match op with
    | .M _ => .MFormat
    | _ => .RFormat)
  | .I => .IFormat
  | .S => .SFormat
  | .B => .BFormat
  | .U => .UFormat
  | .J => .JFormat
  | .ShX | .ShW => .RShamtFormat
  | .Amo | .SsAmo => .AFormat
  | .Lr => (match op with
    | .A .LR_W => .ALrFormat
    | _ => .AFormat)
  | .CsrR => .CsrFormat
  | .CsrI => .CsrUiFormat
  | .Cbo | .SsPush => .OnlyRs1
  | .SsPop => .OnlyRs2
  | .SsRd | .Cntr => .OnlyRd
  | .Fence | .Sys => .NoOperand
  | .SfVma => .RFormat

/-- The instruction value that a word of opcode `op` denotes. -/
def value32 (isa : Isa) (w : Nat) (op : OpcodeKind) (f : Fmt32) : Instruction where
  opc := op
  rd := rd32 w f
  rs1 := rs132 w f
  rs2 := rs232 w f
  imm := imm32 isa w f
  instFormat := instFormat32 op f
  isCompressed := false

end Raki.Spec
