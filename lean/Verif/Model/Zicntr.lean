import Verif.Model.DecodeUtil
/-!
# Zicntr: opcode, register and immediate parsing

Models `/repo/src/decode/zicntr_extension.rs`.
-/

namespace Raki.Zicntr

open U32

/-- `zicntr_extension::bit_32::parse_opcode`, src/decode/zicntr_extension.rs:5-25. -/
def parse_opcode (inst : BitVec 32) : RustM ZicntrOpcode := do
  let opmap ← tryU8 (← slice inst 6 0).toNat
  let funct3 ← tryU8 (← slice inst 14 12).toNat
  let csr_num ← tryU16 (← slice inst 31 20).toNat
  match opmap with
  | 0b111_0011 => (match funct3 with
    | 0b010 => (match csr_num with
      | 0xc00 => .ok .RDCYCLE
      | 0xc01 => .ok .RDTIME
      | 0xc02 => .ok .RDINSTRET
      | 0xc80 => .ok .RDCYCLE_H
      | 0xc81 => .ok .RDTIME_H
      | 0xc82 => .ok .RDINSTRET_H
      | _ => .err .InvalidOpcode)
    | _ => .err .InvalidFunct3)
  | _ => .err .InvalidOpcode

/-- `zicntr_extension::bit_32::parse_rd`, src/decode/zicntr_extension.rs:28-38. -/
def parse_rd (inst : BitVec 32) (opkind : ZicntrOpcode) : RustM (Option Nat) := do
  let rd := (← slice inst 11 7).toNat
  match opkind with
  | .RDCYCLE | .RDTIME | .RDINSTRET | .RDCYCLE_H | .RDTIME_H | .RDINSTRET_H => .ok (some rd)

/-- `zicntr_extension::bit_32::parse_rs1`, src/decode/zicntr_extension.rs:41-50. -/
def parse_rs1 (_inst : BitVec 32) (opkind : ZicntrOpcode) : RustM (Option Nat) := do
  match opkind with
  | .RDCYCLE | .RDTIME | .RDINSTRET | .RDCYCLE_H | .RDTIME_H | .RDINSTRET_H => .ok none

/-- `zicntr_extension::bit_32::parse_rs2`, src/decode/zicntr_extension.rs:53-62. -/
def parse_rs2 (_inst : BitVec 32) (opkind : ZicntrOpcode) : RustM (Option Nat) := do
  match opkind with
  | .RDCYCLE | .RDTIME | .RDINSTRET | .RDCYCLE_H | .RDTIME_H | .RDINSTRET_H => .ok none

/-- `zicntr_extension::bit_32::parse_imm`, src/decode/zicntr_extension.rs:65-74. -/
def parse_imm (_inst : BitVec 32) (opkind : ZicntrOpcode) : RustM (Option Int) :=
  match opkind with
  | .RDCYCLE | .RDTIME | .RDINSTRET | .RDCYCLE_H | .RDTIME_H | .RDINSTRET_H => .ok none

end Raki.Zicntr
