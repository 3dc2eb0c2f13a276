import Verif.Model.DecodeUtil
/-!
# M extension: opcode, register and immediate parsing

Models `/repo/src/decode/m_extension.rs`.
-/

namespace Raki.M

open U32

/-- `m_extension::bit_32::parse_opcode`, src/decode/m_extension.rs:6-32. -/
def parse_opcode (inst : BitVec 32) (isa : Isa) : RustM MOpcode := do
  let opmap ← tryU8 (← slice inst 6 0).toNat
  let funct3 ← tryU8 (← slice inst 14 12).toNat
  match opmap with
  | 0b011_0011 => (match funct3 with
    | 0b000 => .ok .MUL
    | 0b001 => .ok .MULH
    | 0b010 => .ok .MULHSU
    | 0b011 => .ok .MULHU
    | 0b100 => .ok .DIV
    | 0b101 => .ok .DIVU
    | 0b110 => .ok .REM
    | 0b111 => .ok .REMU
    | _ => .err .InvalidFunct3)
  | 0b011_1011 => (match funct3 with
    | 0b000 => only_rv64 .MULW isa
    | 0b100 => only_rv64 .DIVW isa
    | 0b101 => only_rv64 .DIVUW isa
    | 0b110 => only_rv64 .REMW isa
    | 0b111 => only_rv64 .REMUW isa
    | _ => .err .InvalidFunct3)
  | _ => .err .InvalidOpcode

/-- `m_extension::bit_32::parse_rd`, src/decode/m_extension.rs:35-53. -/
def parse_rd (inst : BitVec 32) (opkind : MOpcode) : RustM (Option Nat) := do
  let rd := (← slice inst 11 7).toNat
  match opkind with
  | .MUL | .MULH | .MULHSU | .MULHU | .DIV | .DIVU | .REM | .REMU | .MULW | .DIVW | .DIVUW | .REMW
  | .REMUW => .ok (some rd)

/-- `m_extension::bit_32::parse_rs1`, src/decode/m_extension.rs:56-74. -/
def parse_rs1 (inst : BitVec 32) (opkind : MOpcode) : RustM (Option Nat) := do
  let rs1 := (← slice inst 19 15).toNat
  match opkind with
  | .MUL | .MULH | .MULHSU | .MULHU | .DIV | .DIVU | .REM | .REMU | .MULW | .DIVW | .DIVUW | .REMW
  | .REMUW => .ok (some rs1)

/-- `m_extension::bit_32::parse_rs2`, src/decode/m_extension.rs:77-95. -/
def parse_rs2 (inst : BitVec 32) (opkind : MOpcode) : RustM (Option Nat) := do
  let rs2 := (← slice inst 24 20).toNat
  match opkind with
  | .MUL | .MULH | .MULHSU | .MULHU | .DIV | .DIVU | .REM | .REMU | .MULW | .DIVW | .DIVUW | .REMW
  | .REMUW => .ok (some rs2)

/-- `m_extension::bit_32::parse_imm`, src/decode/m_extension.rs:98-100. -/
def parse_imm (_inst : BitVec 32) (_opkind : MOpcode) : RustM (Option Int) :=
  .ok none

end Raki.M
