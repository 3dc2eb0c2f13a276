import Verif.Model.DecodeUtil
/-!
# Zicsr: opcode, register and immediate parsing

Models `/repo/src/decode/zicsr_extension.rs`.
-/

namespace Raki.Zicsr

open U32

/-- `zicsr_extension::bit_32::parse_opcode`, src/decode/zicsr_extension.rs:5-21. -/
def parse_opcode (inst : BitVec 32) : RustM ZicsrOpcode := do
  let opmap ← tryU8 (← slice inst 6 0).toNat
  let funct3 ← tryU8 (← slice inst 14 12).toNat
  match opmap with
  | 0b111_0011 => (match funct3 with
    | 0b001 => .ok .CSRRW
    | 0b010 => .ok .CSRRS
    | 0b011 => .ok .CSRRC
    | 0b101 => .ok .CSRRWI
    | 0b110 => .ok .CSRRSI
    | 0b111 => .ok .CSRRCI
    | _ => .err .InvalidFunct3)
  | _ => .err .InvalidOpcode

/-- `zicsr_extension::bit_32::parse_rd`, src/decode/zicsr_extension.rs:24-35. -/
def parse_rd (inst : BitVec 32) (opkind : ZicsrOpcode) : RustM (Option Nat) := do
  let rd := (← slice inst 11 7).toNat
  match opkind with
  | .CSRRW | .CSRRS | .CSRRC | .CSRRWI | .CSRRSI | .CSRRCI => .ok (some rd)

/-- `zicsr_extension::bit_32::parse_rs1`, src/decode/zicsr_extension.rs:37-45. -/
def parse_rs1 (inst : BitVec 32) (opkind : ZicsrOpcode) : RustM (Option Nat) := do
  let rs1 := (← slice inst 19 15).toNat
  match opkind with
  | .CSRRW | .CSRRS | .CSRRC => .ok (some rs1)
  | _ => .ok none

/-- `zicsr_extension::bit_32::parse_rs2`, src/decode/zicsr_extension.rs:48-59. -/
def parse_rs2 (inst : BitVec 32) (opkind : ZicsrOpcode) : RustM (Option Nat) := do
  let csr := (← slice inst 31 20).toNat
  match opkind with
  | .CSRRW | .CSRRS | .CSRRC | .CSRRWI | .CSRRSI | .CSRRCI => .ok (some csr)

/-- `zicsr_extension::bit_32::parse_imm`, src/decode/zicsr_extension.rs:62-68. -/
def parse_imm (inst : BitVec 32) (opkind : ZicsrOpcode) : RustM (Option Int) := do
  let uimm ← slice inst 19 15
  match opkind with
  | .CSRRWI | .CSRRSI | .CSRRCI => .ok (some (asI32 uimm))
  | _ => .ok none

end Raki.Zicsr
