import Verif.Model.DecodeUtil
/-!
# Privileged instructions: opcode, register and immediate parsing

Models `/repo/src/decode/priv_extension.rs`.
-/

namespace Raki.Priv

open U32

/-- `priv_extension::bit_32::parse_opcode`, src/decode/priv_extension.rs:5-19. -/
def parse_opcode (inst : BitVec 32) : RustM PrivOpcode := do
  let _opmap ← tryU8 (← slice inst 6 0).toNat
  let _funct3 ← tryU8 (← slice inst 14 12).toNat
  let funct7 ← tryU8 (← slice inst 31 25).toNat
  match inst.toNat with
  | 0b0001_0000_0010_0000_0000_0000_0111_0011 => .ok .SRET
  | 0b0011_0000_0010_0000_0000_0000_0111_0011 => .ok .MRET
  | 0b0001_0000_0101_0000_0000_0000_0111_0011 => .ok .WFI
  | _ => (match funct7 with
    | 0b000_1001 => .ok .SFENCE_VMA
    | _ => .err .InvalidFunct7)

/-- `priv_extension::bit_32::parse_rd`, src/decode/priv_extension.rs:22-24. -/
def parse_rd (_inst : BitVec 32) (_opkind : PrivOpcode) : RustM (Option Nat) :=
  .ok none

/-- `priv_extension::bit_32::parse_rs1`, src/decode/priv_extension.rs:26-33. -/
def parse_rs1 (inst : BitVec 32) (opkind : PrivOpcode) : RustM (Option Nat) := do
  let rs1 := (← slice inst 19 15).toNat
  match opkind with
  | .SFENCE_VMA => .ok (some rs1)
  | _ => .ok none

/-- `priv_extension::bit_32::parse_rs2`, src/decode/priv_extension.rs:35-42. -/
def parse_rs2 (inst : BitVec 32) (opkind : PrivOpcode) : RustM (Option Nat) := do
  let rs2 := (← slice inst 24 20).toNat
  match opkind with
  | .SFENCE_VMA => .ok (some rs2)
  | _ => .ok none

/-- `priv_extension::bit_32::parse_imm`, src/decode/priv_extension.rs:45-47. -/
def parse_imm (_inst : BitVec 32) (_opkind : PrivOpcode) : RustM (Option Int) :=
  .ok none

end Raki.Priv
