import Verif.Model.DecodeUtil
/-!
# A extension: opcode, register and immediate parsing

Models `/repo/src/decode/a_extension.rs`.
-/

namespace Raki.A

open U32

/-- `a_extension::bit_32::parse_opcode`, src/decode/a_extension.rs:6-45. -/
def parse_opcode (inst : BitVec 32) (isa : Isa) : RustM AOpcode := do
  let opmap ← tryU8 (← slice inst 6 0).toNat
  let funct3 ← tryU8 (← slice inst 14 12).toNat
  let funct7 ← tryU8 (← slice inst 31 27).toNat
  match opmap with
  | 0b010_1111 => (match funct3 with
    | 0b010 => (match funct7 with
      | 0b00010 => .ok .LR_W
      | 0b00011 => .ok .SC_W
      | 0b00001 => .ok .AMOSWAP_W
      | 0b00000 => .ok .AMOADD_W
      | 0b00100 => .ok .AMOXOR_W
      | 0b01100 => .ok .AMOAND_W
      | 0b01000 => .ok .AMOOR_W
      | 0b10000 => .ok .AMOMIN_W
      | 0b10100 => .ok .AMOMAX_W
      | 0b11000 => .ok .AMOMINU_W
      | 0b11100 => .ok .AMOMAXU_W
      | _ => .err .InvalidFunct7)
    | 0b011 => (match funct7 with
      | 0b00010 => only_rv64 .LR_D isa
      | 0b00011 => only_rv64 .SC_D isa
      | 0b00001 => only_rv64 .AMOSWAP_D isa
      | 0b00000 => only_rv64 .AMOADD_D isa
      | 0b00100 => only_rv64 .AMOXOR_D isa
      | 0b01100 => only_rv64 .AMOAND_D isa
      | 0b01000 => only_rv64 .AMOOR_D isa
      | 0b10000 => only_rv64 .AMOMIN_D isa
      | 0b10100 => only_rv64 .AMOMAX_D isa
      | 0b11000 => only_rv64 .AMOMINU_D isa
      | 0b11100 => only_rv64 .AMOMAXU_D isa
      | _ => .err .InvalidFunct7)
    | _ => .err .InvalidFunct3)
  | _ => .err .InvalidOpcode

/-- `a_extension::bit_32::parse_rd`, src/decode/a_extension.rs:48-75. -/
def parse_rd (inst : BitVec 32) (opkind : AOpcode) : RustM (Option Nat) := do
  let rd := (← slice inst 11 7).toNat
  match opkind with
  | .LR_W | .SC_W | .AMOSWAP_W | .AMOADD_W | .AMOXOR_W | .AMOAND_W | .AMOOR_W | .AMOMIN_W
  | .AMOMAX_W | .AMOMINU_W | .AMOMAXU_W | .LR_D | .SC_D | .AMOSWAP_D | .AMOADD_D | .AMOXOR_D
  | .AMOAND_D | .AMOOR_D | .AMOMIN_D | .AMOMAX_D | .AMOMINU_D | .AMOMAXU_D => .ok (some rd)

/-- `a_extension::bit_32::parse_rs1`, src/decode/a_extension.rs:78-105. -/
def parse_rs1 (inst : BitVec 32) (opkind : AOpcode) : RustM (Option Nat) := do
  let rs1 := (← slice inst 19 15).toNat
  match opkind with
  | .LR_W | .SC_W | .AMOSWAP_W | .AMOADD_W | .AMOXOR_W | .AMOAND_W | .AMOOR_W | .AMOMIN_W
  | .AMOMAX_W | .AMOMINU_W | .AMOMAXU_W | .LR_D | .SC_D | .AMOSWAP_D | .AMOADD_D | .AMOXOR_D
  | .AMOAND_D | .AMOOR_D | .AMOMIN_D | .AMOMAX_D | .AMOMINU_D | .AMOMAXU_D => .ok (some rs1)

/-- `a_extension::bit_32::parse_rs2`, src/decode/a_extension.rs:107-133. -/
def parse_rs2 (inst : BitVec 32) (opkind : AOpcode) : RustM (Option Nat) := do
  let rs2 := (← slice inst 24 20).toNat
  match opkind with
  | .SC_W | .AMOSWAP_W | .AMOADD_W | .AMOXOR_W | .AMOAND_W | .AMOOR_W | .AMOMIN_W | .AMOMAX_W
  | .AMOMINU_W | .AMOMAXU_W | .SC_D | .AMOSWAP_D | .AMOADD_D | .AMOXOR_D | .AMOAND_D | .AMOOR_D
  | .AMOMIN_D | .AMOMAX_D | .AMOMINU_D | .AMOMAXU_D => .ok (some rs2)
  | _ => .ok none

/-- `a_extension::bit_32::parse_imm`, src/decode/a_extension.rs:137-164. -/
def parse_imm (inst : BitVec 32) (opkind : AOpcode) : RustM (Option Int) :=
  let aq_and_rl : RustM Int := do .ok (asI32 (← slice inst 26 25))
  match opkind with
  | .LR_W | .SC_W | .AMOSWAP_W | .AMOADD_W | .AMOXOR_W | .AMOAND_W | .AMOOR_W | .AMOMIN_W
  | .AMOMAX_W | .AMOMINU_W | .AMOMAXU_W | .LR_D | .SC_D | .AMOSWAP_D | .AMOADD_D | .AMOXOR_D
  | .AMOAND_D | .AMOOR_D | .AMOMIN_D | .AMOMAX_D | .AMOMINU_D
  | .AMOMAXU_D => do .ok (some (← aq_and_rl))

end Raki.A
