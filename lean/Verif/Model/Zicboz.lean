import Verif.Model.DecodeUtil
/-!
# Zicboz: opcode, register and immediate parsing

Models `/repo/src/decode/zicboz_extension.rs`.
-/

namespace Raki.Zicboz

open U32

/-- `zicboz_extension::bit_32::parse_opcode`, src/decode/zicboz_extension.rs:5-24. -/
def parse_opcode (inst : BitVec 32) : RustM ZicbozOpcode := do
  let opmap ← tryU8 (← slice inst 6 0).toNat
  let funct3 ← tryU8 (← slice inst 14 12).toNat
  let field_11_7 ← tryU8 (← slice inst 11 7).toNat
  let cbo_num ← tryU16 (← slice inst 31 20).toNat
  match opmap with
  | 0b000_1111 => (match funct3 with
    | 0b010 => (match cbo_num with
      | 0b100 => (match field_11_7 with
        | 0x0 => .ok .CBO_ZERO
        | _ => .err .InvalidOpcode)
      | _ => .err .InvalidOpcode)
    | _ => .err .InvalidFunct3)
  | _ => .err .InvalidOpcode

/-- `zicboz_extension::bit_32::parse_rd`, src/decode/zicboz_extension.rs:27-29. -/
def parse_rd (_inst : BitVec 32) (_opkind : ZicbozOpcode) : RustM (Option Nat) :=
  .ok none

/-- `zicboz_extension::bit_32::parse_rs1`, src/decode/zicboz_extension.rs:32-37. -/
def parse_rs1 (inst : BitVec 32) (opkind : ZicbozOpcode) : RustM (Option Nat) := do
  let rs1 ← tryU8 (← slice inst 19 15).toNat
  match opkind with
  | .CBO_ZERO => .ok (some rs1)

/-- `zicboz_extension::bit_32::parse_rs2`, src/decode/zicboz_extension.rs:40-42. -/
def parse_rs2 (_inst : BitVec 32) (_opkind : ZicbozOpcode) : RustM (Option Nat) :=
  .ok none

/-- `zicboz_extension::bit_32::parse_imm`, src/decode/zicboz_extension.rs:45-47. -/
def parse_imm (_inst : BitVec 32) (_opkind : ZicbozOpcode) : RustM (Option Int) :=
  .ok none

end Raki.Zicboz
