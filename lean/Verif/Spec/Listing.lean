import Verif.Spec.Isa32
import Verif.Spec.Isa16
import Verif.Spec.Asm
/-!
# The instruction listings

The instruction listings of the manuals ("RV32/64G Instruction Set Listings", "RVC Instruction Set Listings"
and the encodings in the chapters on Zicfiss, Zicntr, Zicboz and the privileged instructions), row by row, in
the form in which they are printed: the pieces of the instruction from the most significant bit to the least
significant one.  Everything else is read off the rows: which words are encodings, what the operands of a word
are, and how to assemble.

This is a second statement of the specification, independent of the one in `Isa32`, `Isa16` and `Asm`, except
for the names of the counter CSRs.
-/

namespace Raki.Spec

/-- A piece of an instruction. -/
inductive Piece where
  /-- `n` fixed bits with value `v` -/
  | c (n v : Nat)
  /-- a register number of five bits; `rdrs1` stands for `rd/rs1` -/
  | rd | rs1 | rs2 | rdrs1
  /-- a register number of three bits, for x8 to x15 -/
  | rd' | rs1' | rs2' | rdrs1'
  /-- a CSR number; the decoder reports it in the place of `rs2` -/
  | csr
  /-- `imm[hi:lo]`; also used for shift amounts, for aq and rl, for fm, pred and succ of `fence` and for the
  immediate operand of CSR instructions, which the decoder reports in the place of the immediate -/
  | imm (hi lo : Nat)
  /-- `n` bits of any value that are not reported (aq and rl of `ssamoswap`) -/
  | free (n : Nat)

/-- Number of bits of a piece. -/
def Piece.width : Piece → Nat
  | .c n _ => n
  | .rd | .rs1 | .rs2 | .rdrs1 => 5
  | .rd' | .rs1' | .rs2' | .rdrs1' => 3
  | .csr => 12
  | .imm hi lo => hi + 1 - lo
  | .free n => n

/-- The operands of an instruction. -/
structure Operands where
  rd : Option Nat
  rs1 : Option Nat
  rs2 : Option Nat
  imm : Option Int

/-- A row of the listings: its pieces, the width of the immediate if it is signed (0 if not), and the
conditions printed beside it. -/
structure Listed where
  pieces : List Piece
  signed : Nat
  side : Operands → Prop

/-- No conditions. -/
def noSide : Operands → Prop := fun _ => True

/-- A row of one ISA only. -/
def on (isa isa' : Isa) (l : Listed) : Option Listed :=
  match isa, isa' with
  | .Rv32, .Rv32 => some l
  | .Rv64, .Rv64 => some l
  | _, _ => none

/-- The listings of 32-bit instructions. -/
def listing32 (isa : Isa) : OpcodeKind → Option Listed
  | .BaseI .LUI => some ⟨[.imm 19 0, .rd, .c 7 0b0110111], 0, noSide⟩
  | .BaseI .AUIPC => some ⟨[.imm 19 0, .rd, .c 7 0b0010111], 0, noSide⟩
  | .BaseI .JAL => some ⟨[.imm 20 20, .imm 10 1, .imm 11 11, .imm 19 12, .rd, .c 7 0b1101111], 21, noSide⟩
  | .BaseI .JALR => some ⟨[.imm 11 0, .rs1, .c 3 0b000, .rd, .c 7 0b1100111], 12, noSide⟩
  | .BaseI .BEQ => some ⟨[.imm 12 12, .imm 10 5, .rs2, .rs1, .c 3 0b000, .imm 4 1, .imm 11 11,
      .c 7 0b1100011], 13, noSide⟩
  | .BaseI .BNE => some ⟨[.imm 12 12, .imm 10 5, .rs2, .rs1, .c 3 0b001, .imm 4 1, .imm 11 11,
      .c 7 0b1100011], 13, noSide⟩
  | .BaseI .BLT => some ⟨[.imm 12 12, .imm 10 5, .rs2, .rs1, .c 3 0b100, .imm 4 1, .imm 11 11,
      .c 7 0b1100011], 13, noSide⟩
  | .BaseI .BGE => some ⟨[.imm 12 12, .imm 10 5, .rs2, .rs1, .c 3 0b101, .imm 4 1, .imm 11 11,
      .c 7 0b1100011], 13, noSide⟩
  | .BaseI .BLTU => some ⟨[.imm 12 12, .imm 10 5, .rs2, .rs1, .c 3 0b110, .imm 4 1, .imm 11 11,
      .c 7 0b1100011], 13, noSide⟩
  | .BaseI .BGEU => some ⟨[.imm 12 12, .imm 10 5, .rs2, .rs1, .c 3 0b111, .imm 4 1, .imm 11 11,
      .c 7 0b1100011], 13, noSide⟩
  | .BaseI .LB => some ⟨[.imm 11 0, .rs1, .c 3 0b000, .rd, .c 7 0b0000011], 12, noSide⟩
  | .BaseI .LH => some ⟨[.imm 11 0, .rs1, .c 3 0b001, .rd, .c 7 0b0000011], 12, noSide⟩
  | .BaseI .LW => some ⟨[.imm 11 0, .rs1, .c 3 0b010, .rd, .c 7 0b0000011], 12, noSide⟩
  | .BaseI .LBU => some ⟨[.imm 11 0, .rs1, .c 3 0b100, .rd, .c 7 0b0000011], 12, noSide⟩
  | .BaseI .LHU => some ⟨[.imm 11 0, .rs1, .c 3 0b101, .rd, .c 7 0b0000011], 12, noSide⟩
  | .BaseI .SB => some ⟨[.imm 11 5, .rs2, .rs1, .c 3 0b000, .imm 4 0, .c 7 0b0100011], 12, noSide⟩
  | .BaseI .SH => some ⟨[.imm 11 5, .rs2, .rs1, .c 3 0b001, .imm 4 0, .c 7 0b0100011], 12, noSide⟩
  | .BaseI .SW => some ⟨[.imm 11 5, .rs2, .rs1, .c 3 0b010, .imm 4 0, .c 7 0b0100011], 12, noSide⟩
  | .BaseI .ADDI => some ⟨[.imm 11 0, .rs1, .c 3 0b000, .rd, .c 7 0b0010011], 12, noSide⟩
  | .BaseI .SLTI => some ⟨[.imm 11 0, .rs1, .c 3 0b010, .rd, .c 7 0b0010011], 12, noSide⟩
  | .BaseI .SLTIU => some ⟨[.imm 11 0, .rs1, .c 3 0b011, .rd, .c 7 0b0010011], 12, noSide⟩
  | .BaseI .XORI => some ⟨[.imm 11 0, .rs1, .c 3 0b100, .rd, .c 7 0b0010011], 12, noSide⟩
  | .BaseI .ORI => some ⟨[.imm 11 0, .rs1, .c 3 0b110, .rd, .c 7 0b0010011], 12, noSide⟩
  | .BaseI .ANDI => some ⟨[.imm 11 0, .rs1, .c 3 0b111, .rd, .c 7 0b0010011], 12, noSide⟩
  | .BaseI .SLLI => (match isa with
    | .Rv32 => some ⟨[.c 7 0b0000000, .imm 4 0, .rs1, .c 3 0b001, .rd, .c 7 0b0010011], 0, noSide⟩
    | .Rv64 => some ⟨[.c 6 0b000000, .imm 5 0, .rs1, .c 3 0b001, .rd, .c 7 0b0010011], 0, noSide⟩)
  | .BaseI .SRLI => (match isa with
    | .Rv32 => some ⟨[.c 7 0b0000000, .imm 4 0, .rs1, .c 3 0b101, .rd, .c 7 0b0010011], 0, noSide⟩
    | .Rv64 => some ⟨[.c 6 0b000000, .imm 5 0, .rs1, .c 3 0b101, .rd, .c 7 0b0010011], 0, noSide⟩)
  | .BaseI .SRAI => (match isa with
    | .Rv32 => some ⟨[.c 7 0b0100000, .imm 4 0, .rs1, .c 3 0b101, .rd, .c 7 0b0010011], 0, noSide⟩
    | .Rv64 => some ⟨[.c 6 0b010000, .imm 5 0, .rs1, .c 3 0b101, .rd, .c 7 0b0010011], 0, noSide⟩)
  | .BaseI .ADD => some ⟨[.c 7 0b0000000, .rs2, .rs1, .c 3 0b000, .rd, .c 7 0b0110011], 0, noSide⟩
  | .BaseI .SUB => some ⟨[.c 7 0b0100000, .rs2, .rs1, .c 3 0b000, .rd, .c 7 0b0110011], 0, noSide⟩
  | .BaseI .SLL => some ⟨[.c 7 0b0000000, .rs2, .rs1, .c 3 0b001, .rd, .c 7 0b0110011], 0, noSide⟩
  | .BaseI .SLT => some ⟨[.c 7 0b0000000, .rs2, .rs1, .c 3 0b010, .rd, .c 7 0b0110011], 0, noSide⟩
  | .BaseI .SLTU => some ⟨[.c 7 0b0000000, .rs2, .rs1, .c 3 0b011, .rd, .c 7 0b0110011], 0, noSide⟩
  | .BaseI .XOR => some ⟨[.c 7 0b0000000, .rs2, .rs1, .c 3 0b100, .rd, .c 7 0b0110011], 0, noSide⟩
  | .BaseI .SRL => some ⟨[.c 7 0b0000000, .rs2, .rs1, .c 3 0b101, .rd, .c 7 0b0110011], 0, noSide⟩
  | .BaseI .SRA => some ⟨[.c 7 0b0100000, .rs2, .rs1, .c 3 0b101, .rd, .c 7 0b0110011], 0, noSide⟩
  | .BaseI .OR => some ⟨[.c 7 0b0000000, .rs2, .rs1, .c 3 0b110, .rd, .c 7 0b0110011], 0, noSide⟩
  | .BaseI .AND => some ⟨[.c 7 0b0000000, .rs2, .rs1, .c 3 0b111, .rd, .c 7 0b0110011], 0, noSide⟩
  | .BaseI .ECALL => some ⟨[.c 12 0b000000000000, .c 5 0b00000, .c 3 0b000, .c 5 0b00000, .c 7 0b1110011],
      0, noSide⟩
  | .BaseI .EBREAK => some ⟨[.c 12 0b000000000001, .c 5 0b00000, .c 3 0b000, .c 5 0b00000, .c 7 0b1110011],
      0, noSide⟩
  | .BaseI .LWU => on isa .Rv64 ⟨[.imm 11 0, .rs1, .c 3 0b110, .rd, .c 7 0b0000011], 12, noSide⟩
  | .BaseI .LD => on isa .Rv64 ⟨[.imm 11 0, .rs1, .c 3 0b011, .rd, .c 7 0b0000011], 12, noSide⟩
  | .BaseI .SD => on isa .Rv64 ⟨[.imm 11 5, .rs2, .rs1, .c 3 0b011, .imm 4 0, .c 7 0b0100011], 12, noSide⟩
  | .BaseI .ADDIW => on isa .Rv64 ⟨[.imm 11 0, .rs1, .c 3 0b000, .rd, .c 7 0b0011011], 12, noSide⟩
  | .BaseI .SLLIW => on isa .Rv64 ⟨[.c 7 0b0000000, .imm 4 0, .rs1, .c 3 0b001, .rd, .c 7 0b0011011],
      0, noSide⟩
  | .BaseI .SRLIW => on isa .Rv64 ⟨[.c 7 0b0000000, .imm 4 0, .rs1, .c 3 0b101, .rd, .c 7 0b0011011],
      0, noSide⟩
  | .BaseI .SRAIW => on isa .Rv64 ⟨[.c 7 0b0100000, .imm 4 0, .rs1, .c 3 0b101, .rd, .c 7 0b0011011],
      0, noSide⟩
  | .BaseI .ADDW => on isa .Rv64 ⟨[.c 7 0b0000000, .rs2, .rs1, .c 3 0b000, .rd, .c 7 0b0111011], 0, noSide⟩
  | .BaseI .SUBW => on isa .Rv64 ⟨[.c 7 0b0100000, .rs2, .rs1, .c 3 0b000, .rd, .c 7 0b0111011], 0, noSide⟩
  | .BaseI .SLLW => on isa .Rv64 ⟨[.c 7 0b0000000, .rs2, .rs1, .c 3 0b001, .rd, .c 7 0b0111011], 0, noSide⟩
  | .BaseI .SRLW => on isa .Rv64 ⟨[.c 7 0b0000000, .rs2, .rs1, .c 3 0b101, .rd, .c 7 0b0111011], 0, noSide⟩
  | .BaseI .SRAW => on isa .Rv64 ⟨[.c 7 0b0100000, .rs2, .rs1, .c 3 0b101, .rd, .c 7 0b0111011], 0, noSide⟩
  | .M .MUL => some ⟨[.c 7 0b0000001, .rs2, .rs1, .c 3 0b000, .rd, .c 7 0b0110011], 0, noSide⟩
  | .M .MULH => some ⟨[.c 7 0b0000001, .rs2, .rs1, .c 3 0b001, .rd, .c 7 0b0110011], 0, noSide⟩
  | .M .MULHSU => some ⟨[.c 7 0b0000001, .rs2, .rs1, .c 3 0b010, .rd, .c 7 0b0110011], 0, noSide⟩
  | .M .MULHU => some ⟨[.c 7 0b0000001, .rs2, .rs1, .c 3 0b011, .rd, .c 7 0b0110011], 0, noSide⟩
  | .M .DIV => some ⟨[.c 7 0b0000001, .rs2, .rs1, .c 3 0b100, .rd, .c 7 0b0110011], 0, noSide⟩
  | .M .DIVU => some ⟨[.c 7 0b0000001, .rs2, .rs1, .c 3 0b101, .rd, .c 7 0b0110011], 0, noSide⟩
  | .M .REM => some ⟨[.c 7 0b0000001, .rs2, .rs1, .c 3 0b110, .rd, .c 7 0b0110011], 0, noSide⟩
  | .M .REMU => some ⟨[.c 7 0b0000001, .rs2, .rs1, .c 3 0b111, .rd, .c 7 0b0110011], 0, noSide⟩
  | .M .MULW => on isa .Rv64 ⟨[.c 7 0b0000001, .rs2, .rs1, .c 3 0b000, .rd, .c 7 0b0111011], 0, noSide⟩
  | .M .DIVW => on isa .Rv64 ⟨[.c 7 0b0000001, .rs2, .rs1, .c 3 0b100, .rd, .c 7 0b0111011], 0, noSide⟩
  | .M .DIVUW => on isa .Rv64 ⟨[.c 7 0b0000001, .rs2, .rs1, .c 3 0b101, .rd, .c 7 0b0111011], 0, noSide⟩
  | .M .REMW => on isa .Rv64 ⟨[.c 7 0b0000001, .rs2, .rs1, .c 3 0b110, .rd, .c 7 0b0111011], 0, noSide⟩
  | .M .REMUW => on isa .Rv64 ⟨[.c 7 0b0000001, .rs2, .rs1, .c 3 0b111, .rd, .c 7 0b0111011], 0, noSide⟩
  | .A .LR_W => some ⟨[.c 5 0b00010, .imm 1 0, .c 5 0b00000, .rs1, .c 3 0b010, .rd, .c 7 0b0101111],
      0, noSide⟩
  | .A .SC_W => some ⟨[.c 5 0b00011, .imm 1 0, .rs2, .rs1, .c 3 0b010, .rd, .c 7 0b0101111], 0, noSide⟩
  | .A .AMOSWAP_W => some ⟨[.c 5 0b00001, .imm 1 0, .rs2, .rs1, .c 3 0b010, .rd, .c 7 0b0101111], 0, noSide⟩
  | .A .AMOADD_W => some ⟨[.c 5 0b00000, .imm 1 0, .rs2, .rs1, .c 3 0b010, .rd, .c 7 0b0101111], 0, noSide⟩
  | .A .AMOXOR_W => some ⟨[.c 5 0b00100, .imm 1 0, .rs2, .rs1, .c 3 0b010, .rd, .c 7 0b0101111], 0, noSide⟩
  | .A .AMOAND_W => some ⟨[.c 5 0b01100, .imm 1 0, .rs2, .rs1, .c 3 0b010, .rd, .c 7 0b0101111], 0, noSide⟩
  | .A .AMOOR_W => some ⟨[.c 5 0b01000, .imm 1 0, .rs2, .rs1, .c 3 0b010, .rd, .c 7 0b0101111], 0, noSide⟩
  | .A .AMOMIN_W => some ⟨[.c 5 0b10000, .imm 1 0, .rs2, .rs1, .c 3 0b010, .rd, .c 7 0b0101111], 0, noSide⟩
  | .A .AMOMAX_W => some ⟨[.c 5 0b10100, .imm 1 0, .rs2, .rs1, .c 3 0b010, .rd, .c 7 0b0101111], 0, noSide⟩
  | .A .AMOMINU_W => some ⟨[.c 5 0b11000, .imm 1 0, .rs2, .rs1, .c 3 0b010, .rd, .c 7 0b0101111], 0, noSide⟩
  | .A .AMOMAXU_W => some ⟨[.c 5 0b11100, .imm 1 0, .rs2, .rs1, .c 3 0b010, .rd, .c 7 0b0101111], 0, noSide⟩
  | .A .LR_D => on isa .Rv64 ⟨[.c 5 0b00010, .imm 1 0, .c 5 0b00000, .rs1, .c 3 0b011, .rd,
      .c 7 0b0101111], 0, noSide⟩
  | .A .SC_D => on isa .Rv64 ⟨[.c 5 0b00011, .imm 1 0, .rs2, .rs1, .c 3 0b011, .rd, .c 7 0b0101111],
      0, noSide⟩
  | .A .AMOSWAP_D => on isa .Rv64 ⟨[.c 5 0b00001, .imm 1 0, .rs2, .rs1, .c 3 0b011, .rd, .c 7 0b0101111],
      0, noSide⟩
  | .A .AMOADD_D => on isa .Rv64 ⟨[.c 5 0b00000, .imm 1 0, .rs2, .rs1, .c 3 0b011, .rd, .c 7 0b0101111],
      0, noSide⟩
  | .A .AMOXOR_D => on isa .Rv64 ⟨[.c 5 0b00100, .imm 1 0, .rs2, .rs1, .c 3 0b011, .rd, .c 7 0b0101111],
      0, noSide⟩
  | .A .AMOAND_D => on isa .Rv64 ⟨[.c 5 0b01100, .imm 1 0, .rs2, .rs1, .c 3 0b011, .rd, .c 7 0b0101111],
      0, noSide⟩
  | .A .AMOOR_D => on isa .Rv64 ⟨[.c 5 0b01000, .imm 1 0, .rs2, .rs1, .c 3 0b011, .rd, .c 7 0b0101111],
      0, noSide⟩
  | .A .AMOMIN_D => on isa .Rv64 ⟨[.c 5 0b10000, .imm 1 0, .rs2, .rs1, .c 3 0b011, .rd, .c 7 0b0101111],
      0, noSide⟩
  | .A .AMOMAX_D => on isa .Rv64 ⟨[.c 5 0b10100, .imm 1 0, .rs2, .rs1, .c 3 0b011, .rd, .c 7 0b0101111],
      0, noSide⟩
  | .A .AMOMINU_D => on isa .Rv64 ⟨[.c 5 0b11000, .imm 1 0, .rs2, .rs1, .c 3 0b011, .rd, .c 7 0b0101111],
      0, noSide⟩
  | .A .AMOMAXU_D => on isa .Rv64 ⟨[.c 5 0b11100, .imm 1 0, .rs2, .rs1, .c 3 0b011, .rd, .c 7 0b0101111],
      0, noSide⟩
  | .Zifencei .FENCE => some ⟨[.imm 11 0, .rs1, .c 3 0b000, .rd, .c 7 0b0001111], 0, noSide⟩
  | .Zicboz .CBO_ZERO => some ⟨[.c 12 0b000000000100, .rs1, .c 3 0b010, .c 5 0b00000, .c 7 0b0001111],
      0, noSide⟩
  | .Zicsr .CSRRW => some ⟨[.csr, .rs1, .c 3 0b001, .rd, .c 7 0b1110011], 0, noSide⟩
  | .Zicsr .CSRRS => some ⟨[.csr, .rs1, .c 3 0b010, .rd, .c 7 0b1110011],
      0, fun o => ∀ c, o.rs2 = some c → ¬ counterCsr c⟩
  | .Zicsr .CSRRC => some ⟨[.csr, .rs1, .c 3 0b011, .rd, .c 7 0b1110011], 0, noSide⟩
  | .Zicsr .CSRRWI => some ⟨[.csr, .imm 4 0, .c 3 0b101, .rd, .c 7 0b1110011], 0, noSide⟩
  | .Zicsr .CSRRSI => some ⟨[.csr, .imm 4 0, .c 3 0b110, .rd, .c 7 0b1110011], 0, noSide⟩
  | .Zicsr .CSRRCI => some ⟨[.csr, .imm 4 0, .c 3 0b111, .rd, .c 7 0b1110011], 0, noSide⟩
  | .Zicfiss .SSPUSH => some ⟨[.c 7 0b1100111, .rs2, .rs1, .c 3 0b100, .rd, .c 7 0b1110011],
      0, fun o => o.rd = some 0 ∧ o.rs1 = some 0 ∧ (o.rs2 = some 1 ∨ o.rs2 = some 5)⟩
  | .Zicfiss .SSPOPCHK => some ⟨[.c 12 0b110011011100, .rs1, .c 3 0b100, .rd, .c 7 0b1110011],
      0, fun o => o.rd = some 0 ∧ (o.rs1 = some 1 ∨ o.rs1 = some 5)⟩
  | .Zicfiss .SSRDP => some ⟨[.c 12 0b110011011100, .c 5 0b00000, .c 3 0b100, .rd, .c 7 0b1110011],
      0, fun o => o.rd ≠ some 0⟩
  | .Zicfiss .SSAMOSWAP_W => some ⟨[.c 5 0b01001, .free 2, .rs2, .rs1, .c 3 0b010, .rd, .c 7 0b0101111],
      0, noSide⟩
  | .Zicfiss .SSAMOSWAP_D => on isa .Rv64 ⟨[.c 5 0b01001, .free 2, .rs2, .rs1, .c 3 0b011, .rd,
      .c 7 0b0101111], 0, noSide⟩
  | .Zicntr .RDCYCLE => some ⟨[.c 12 0b110000000000, .c 5 0b00000, .c 3 0b010, .rd, .c 7 0b1110011],
      0, noSide⟩
  | .Zicntr .RDTIME => some ⟨[.c 12 0b110000000001, .c 5 0b00000, .c 3 0b010, .rd, .c 7 0b1110011],
      0, noSide⟩
  | .Zicntr .RDINSTRET => some ⟨[.c 12 0b110000000010, .c 5 0b00000, .c 3 0b010, .rd, .c 7 0b1110011],
      0, noSide⟩
  | .Zicntr .RDCYCLE_H => on isa .Rv32 ⟨[.c 12 0b110010000000, .c 5 0b00000, .c 3 0b010, .rd,
      .c 7 0b1110011], 0, noSide⟩
  | .Zicntr .RDTIME_H => on isa .Rv32 ⟨[.c 12 0b110010000001, .c 5 0b00000, .c 3 0b010, .rd,
      .c 7 0b1110011], 0, noSide⟩
  | .Zicntr .RDINSTRET_H => on isa .Rv32 ⟨[.c 12 0b110010000010, .c 5 0b00000, .c 3 0b010, .rd,
      .c 7 0b1110011], 0, noSide⟩
  | .Priv .SRET => some ⟨[.c 12 0b000100000010, .c 5 0b00000, .c 3 0b000, .c 5 0b00000, .c 7 0b1110011],
      0, noSide⟩
  | .Priv .MRET => some ⟨[.c 12 0b001100000010, .c 5 0b00000, .c 3 0b000, .c 5 0b00000, .c 7 0b1110011],
      0, noSide⟩
  | .Priv .WFI => some ⟨[.c 12 0b000100000101, .c 5 0b00000, .c 3 0b000, .c 5 0b00000, .c 7 0b1110011],
      0, noSide⟩
  | .Priv .SFENCE_VMA => some ⟨[.c 7 0b0001001, .rs2, .rs1, .c 3 0b000, .c 5 0b00000, .c 7 0b1110011],
      0, noSide⟩
  | .C _ | .Zicfiss .C_SSPUSH | .Zicfiss .C_SSPOPCHK => none

/-- The listings of compressed instructions. -/
def listing16 (isa : Isa) : OpcodeKind → Option Listed
  | .C .ADDI4SPN => some ⟨[.c 3 0b000, .imm 5 4, .imm 9 6, .imm 2 2, .imm 3 3, .rd', .c 2 0b00],
      0, fun o => o.imm ≠ some 0⟩
  | .C .LW => some ⟨[.c 3 0b010, .imm 5 3, .rs1', .imm 2 2, .imm 6 6, .rd', .c 2 0b00], 0, noSide⟩
  | .C .LD => on isa .Rv64 ⟨[.c 3 0b011, .imm 5 3, .rs1', .imm 7 6, .rd', .c 2 0b00], 0, noSide⟩
  | .C .SW => some ⟨[.c 3 0b110, .imm 5 3, .rs1', .imm 2 2, .imm 6 6, .rs2', .c 2 0b00], 0, noSide⟩
  | .C .SD => on isa .Rv64 ⟨[.c 3 0b111, .imm 5 3, .rs1', .imm 7 6, .rs2', .c 2 0b00], 0, noSide⟩
  | .C .NOP => some ⟨[.c 3 0b000, .imm 5 5, .c 5 0b00000, .imm 4 0, .c 2 0b01], 6, noSide⟩
  | .C .ADDI => some ⟨[.c 3 0b000, .imm 5 5, .rdrs1, .imm 4 0, .c 2 0b01], 6, fun o => o.rd ≠ some 0⟩
  | .C .JAL => on isa .Rv32 ⟨[.c 3 0b001, .imm 11 11, .imm 4 4, .imm 9 8, .imm 10 10, .imm 6 6, .imm 7 7,
      .imm 3 1, .imm 5 5, .c 2 0b01], 12, noSide⟩
  | .C .ADDIW => on isa .Rv64 ⟨[.c 3 0b001, .imm 5 5, .rdrs1, .imm 4 0, .c 2 0b01],
      6, fun o => o.rd ≠ some 0⟩
  | .C .LI => some ⟨[.c 3 0b010, .imm 5 5, .rd, .imm 4 0, .c 2 0b01], 6, noSide⟩
  | .C .ADDI16SP => some ⟨[.c 3 0b011, .imm 9 9, .rdrs1, .imm 4 4, .imm 6 6, .imm 8 7, .imm 5 5,
      .c 2 0b01], 10, fun o => o.rd = some 2 ∧ o.imm ≠ some 0⟩
  | .C .LUI => some ⟨[.c 3 0b011, .imm 17 17, .rd, .imm 16 12, .c 2 0b01],
      18, fun o => o.rd ≠ some 2 ∧ o.imm ≠ some 0⟩
  | .C .SRLI => (match isa with
    | .Rv32 => some ⟨[.c 3 0b100, .c 1 0b0, .c 2 0b00, .rdrs1', .imm 4 0, .c 2 0b01], 0, noSide⟩
    | .Rv64 => some ⟨[.c 3 0b100, .imm 5 5, .c 2 0b00, .rdrs1', .imm 4 0, .c 2 0b01], 0, noSide⟩)
  | .C .SRAI => (match isa with
    | .Rv32 => some ⟨[.c 3 0b100, .c 1 0b0, .c 2 0b01, .rdrs1', .imm 4 0, .c 2 0b01], 0, noSide⟩
    | .Rv64 => some ⟨[.c 3 0b100, .imm 5 5, .c 2 0b01, .rdrs1', .imm 4 0, .c 2 0b01], 0, noSide⟩)
  | .C .ANDI => some ⟨[.c 3 0b100, .imm 5 5, .c 2 0b10, .rdrs1', .imm 4 0, .c 2 0b01], 6, noSide⟩
  | .C .SUB => some ⟨[.c 3 0b100, .c 1 0b0, .c 2 0b11, .rdrs1', .c 2 0b00, .rs2', .c 2 0b01], 0, noSide⟩
  | .C .XOR => some ⟨[.c 3 0b100, .c 1 0b0, .c 2 0b11, .rdrs1', .c 2 0b01, .rs2', .c 2 0b01], 0, noSide⟩
  | .C .OR => some ⟨[.c 3 0b100, .c 1 0b0, .c 2 0b11, .rdrs1', .c 2 0b10, .rs2', .c 2 0b01], 0, noSide⟩
  | .C .AND => some ⟨[.c 3 0b100, .c 1 0b0, .c 2 0b11, .rdrs1', .c 2 0b11, .rs2', .c 2 0b01], 0, noSide⟩
  | .C .SUBW => on isa .Rv64 ⟨[.c 3 0b100, .c 1 0b1, .c 2 0b11, .rdrs1', .c 2 0b00, .rs2', .c 2 0b01],
      0, noSide⟩
  | .C .ADDW => on isa .Rv64 ⟨[.c 3 0b100, .c 1 0b1, .c 2 0b11, .rdrs1', .c 2 0b01, .rs2', .c 2 0b01],
      0, noSide⟩
  | .C .J => some ⟨[.c 3 0b101, .imm 11 11, .imm 4 4, .imm 9 8, .imm 10 10, .imm 6 6, .imm 7 7, .imm 3 1,
      .imm 5 5, .c 2 0b01], 12, noSide⟩
  | .C .BEQZ => some ⟨[.c 3 0b110, .imm 8 8, .imm 4 3, .rs1', .imm 7 6, .imm 2 1, .imm 5 5, .c 2 0b01],
      9, noSide⟩
  | .C .BNEZ => some ⟨[.c 3 0b111, .imm 8 8, .imm 4 3, .rs1', .imm 7 6, .imm 2 1, .imm 5 5, .c 2 0b01],
      9, noSide⟩
  | .C .SLLI => (match isa with
    | .Rv32 => some ⟨[.c 3 0b000, .c 1 0b0, .rdrs1, .imm 4 0, .c 2 0b10], 0, noSide⟩
    | .Rv64 => some ⟨[.c 3 0b000, .imm 5 5, .rdrs1, .imm 4 0, .c 2 0b10], 0, noSide⟩)
  | .C .LWSP => some ⟨[.c 3 0b010, .imm 5 5, .rd, .imm 4 2, .imm 7 6, .c 2 0b10], 0, fun o => o.rd ≠ some 0⟩
  | .C .LDSP => on isa .Rv64 ⟨[.c 3 0b011, .imm 5 5, .rd, .imm 4 3, .imm 8 6, .c 2 0b10],
      0, fun o => o.rd ≠ some 0⟩
  | .C .JR => some ⟨[.c 3 0b100, .c 1 0b0, .rs1, .rs2, .c 2 0b10],
      0, fun o => o.rs1 ≠ some 0 ∧ o.rs2 = some 0⟩
  | .C .MV => some ⟨[.c 3 0b100, .c 1 0b0, .rd, .rs2, .c 2 0b10], 0, fun o => o.rs2 ≠ some 0⟩
  | .C .EBREAK => some ⟨[.c 3 0b100, .c 1 0b1, .c 5 0b00000, .c 5 0b00000, .c 2 0b10], 0, noSide⟩
  | .C .JALR => some ⟨[.c 3 0b100, .c 1 0b1, .rs1, .rs2, .c 2 0b10],
      0, fun o => o.rs1 ≠ some 0 ∧ o.rs2 = some 0⟩
  | .C .ADD => some ⟨[.c 3 0b100, .c 1 0b1, .rdrs1, .rs2, .c 2 0b10], 0, fun o => o.rs2 ≠ some 0⟩
  | .C .SWSP => some ⟨[.c 3 0b110, .imm 5 2, .imm 7 6, .rs2, .c 2 0b10], 0, noSide⟩
  | .C .SDSP => on isa .Rv64 ⟨[.c 3 0b111, .imm 5 3, .imm 8 6, .rs2, .c 2 0b10], 0, noSide⟩
  | .Zicfiss .C_SSPUSH => some ⟨[.c 3 0b011, .c 1 0b0, .rd, .c 5 0b00000, .c 2 0b01],
      0, fun o => o.rd = some 1⟩
  | .Zicfiss .C_SSPOPCHK => some ⟨[.c 3 0b011, .c 1 0b0, .rd, .c 5 0b00000, .c 2 0b01],
      0, fun o => o.rd = some 5⟩
  | _ => none

/-- The number of bits of a row. -/
def Listed.bits (l : Listed) : Nat := (l.pieces.map Piece.width).sum

/-- The bits of the immediate that a row shows, each as often as it shows it. -/
def Listed.immBits (l : Listed) : List Nat :=
  l.pieces.flatMap fun
    | .imm hi lo => (List.range (hi + 1 - lo)).map (lo + ·)
    | _ => []

/-! ## Reading a word -/

/-- The values of the pieces in the word `w`, where the first piece ends just below bit `pos`. -/
def cut : List Piece → Nat → Nat → List (Piece × Nat)
  | [], _, _ => []
  | p :: ps, pos, w => (p, fld w (pos - 1) (pos - p.width)) :: cut ps (pos - p.width) w

/-- Fixed bits have their value. -/
def Piece.fixed : Piece → Nat → Prop
  | .c _ v, x => x = v
  | _, _ => True

/-- All fixed bits have their value. -/
def allFixed : List (Piece × Nat) → Prop
  | [] => True
  | (p, x) :: ps => p.fixed x ∧ allFixed ps

/-- The destination register named by a piece with value `x`. -/
def Piece.asRd : Piece → Nat → Option Nat
  | .rd, x | .rdrs1, x => some x
  | .rd', x | .rdrs1', x => some (8 + x)
  | _, _ => none

/-- The first source register named by a piece. -/
def Piece.asRs1 : Piece → Nat → Option Nat
  | .rs1, x | .rdrs1, x => some x
  | .rs1', x | .rdrs1', x => some (8 + x)
  | _, _ => none

/-- The second source register, or CSR, named by a piece. -/
def Piece.asRs2 : Piece → Nat → Option Nat
  | .rs2, x | .csr, x => some x
  | .rs2', x => some (8 + x)
  | _, _ => none

/-- The contribution of a piece to the immediate. -/
def Piece.asImm : Piece → Nat → Option Nat
  | .imm _ lo, x => some (x * 2 ^ lo)
  | _, _ => none

/-- The operand found in the pieces. -/
def pick (f : Piece → Nat → Option Nat) : List (Piece × Nat) → Option Nat
  | [] => none
  | (p, x) :: ps => match f p x with
    | some r => some r
    | none => pick f ps

/-- The immediate bits collected from the pieces. -/
def gather : List (Piece × Nat) → Option Nat
  | [] => none
  | (p, x) :: ps => match p.asImm x, gather ps with
    | some a, some b => some (a + b)
    | some a, none => some a
    | none, r => r

/-- The operands of a word of the given length, according to a row. -/
def Listed.operands (l : Listed) (len w : Nat) : Operands where
  rd := pick Piece.asRd (cut l.pieces len w)
  rs1 := pick Piece.asRs1 (cut l.pieces len w)
  rs2 := pick Piece.asRs2 (cut l.pieces len w)
  imm := (gather (cut l.pieces len w)).map fun u : Nat => if l.signed = 0 then (u : Int) else sext l.signed u

/-- A word of the given length is an instance of the row. -/
def Listed.covers (l : Listed) (len w : Nat) : Prop :=
  allFixed (cut l.pieces len w) ∧ l.side (l.operands len w)

/-! ## Assembling -/

/-- The value to put into a piece. -/
def Piece.fill (rd rs1 rs2 u : Nat) : Piece → Nat
  | .c _ v => v
  | .rd | .rdrs1 => rd
  | .rs1 => rs1
  | .rs2 | .csr => rs2
  | .rd' | .rdrs1' => rd - 8
  | .rs1' => rs1 - 8
  | .rs2' => rs2 - 8
  | .imm hi lo => fld u hi lo
  | .free _ => 0

/-- The word with the given operands (0 for an operand that is absent; `u` is the two's complement of the
immediate), where the first piece ends just below bit `pos`. -/
def fillIn (rd rs1 rs2 u : Nat) : List Piece → Nat → Nat
  | [], _ => 0
  | p :: ps, pos => p.fill rd rs1 rs2 u * 2 ^ (pos - p.width) + fillIn rd rs1 rs2 u ps (pos - p.width)

/-- Assemble an instruction value by its row. -/
def Listed.assemble (l : Listed) (len : Nat) (i : Instruction) : Nat :=
  fillIn (i.rd.getD 0) (i.rs1.getD 0) (i.rs2.getD 0) (ofI 32 (i.imm.getD 0)) l.pieces len

end Raki.Spec
