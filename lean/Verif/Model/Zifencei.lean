import Verif.Model.DecodeUtil
/-!
# Zifencei: opcode, register and immediate parsing

Models `/repo/src/decode/zifencei_extension.rs`.
-/

namespace Raki.Zifencei

open U32

/-- `zifencei_extension::bit_32::parse_opcode`, src/decode/zifencei_extension.rs:5-12. -/
def parse_opcode (inst : BitVec 32) : RustM ZifenceiOpcode := do
  let opmap ← tryU8 (← slice inst 6 0).toNat
  match opmap with
  | 0b000_1111 => .ok .FENCE
  | _ => .err .InvalidOpcode

/-- `zifencei_extension::bit_32::parse_rd`, src/decode/zifencei_extension.rs:15-21. -/
def parse_rd (inst : BitVec 32) (opkind : ZifenceiOpcode) : RustM (Option Nat) := do
  let rd := (← slice inst 11 7).toNat
  match opkind with
  | .FENCE => .ok (some rd)

/-- `zifencei_extension::bit_32::parse_rs1`, src/decode/zifencei_extension.rs:24-30. -/
def parse_rs1 (inst : BitVec 32) (opkind : ZifenceiOpcode) : RustM (Option Nat) := do
  let rs1 := (← slice inst 19 15).toNat
  match opkind with
  | .FENCE => .ok (some rs1)

/-- `zifencei_extension::bit_32::parse_rs2`, src/decode/zifencei_extension.rs:33-37. -/
def parse_rs2 (_inst : BitVec 32) (opkind : ZifenceiOpcode) : RustM (Option Nat) := do
  match opkind with
  | .FENCE => .ok none

/-- `zifencei_extension::bit_32::parse_imm`, src/decode/zifencei_extension.rs:40-45. -/
def parse_imm (inst : BitVec 32) (opkind : ZifenceiOpcode) : RustM (Option Int) := do
  let fm_pred_succ ← slice inst 31 20
  match opkind with
  | .FENCE => .ok (some (asI32 fm_pred_succ))

end Raki.Zifencei
