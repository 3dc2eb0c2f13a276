import Verif.Model.DecodeUtil
/-!
# Zicfiss (32-bit forms): opcode, register and immediate parsing

Models `/repo/src/decode/zicfiss_extension.rs`.
-/

namespace Raki.Zicfiss

open U32

/-- `zicfiss_extension::bit_32::parse_opcode`, src/decode/zicfiss_extension.rs:5-30. -/
def parse_opcode (inst : BitVec 32) : RustM ZicfissOpcode := do
  let opmap ← tryU8 (← slice inst 6 0).toNat
  let funct3 ← tryU8 (← slice inst 14 12).toNat
  let rs1 ← tryU8 (← slice inst 19 15).toNat
  let funct7_rs2 ← tryU16 (← slice inst 31 20).toNat
  match opmap with
  | 0b111_0011 => (match funct3 with
    | 0b100 => (match funct7_rs2 with
      | 0b1100_1110_0001 | 0b1100_1110_0101 => .ok .SSPUSH
      | 0b1100_1101_1100 => (match rs1 with
        | 0b0_0000 => .ok .SSRDP
        | _ => .ok .SSPOPCHK)
      | _ => .err .InvalidOpcode)
    | _ => .err .InvalidFunct3)
  | 0b010_1111 => (match funct3 with
    | 0b010 => .ok .SSAMOSWAP_W
    | 0b011 => .ok .SSAMOSWAP_D
    | _ => .err .InvalidFunct3)
  | _ => .err .InvalidOpcode

/-- `zicfiss_extension::bit_32::parse_rd`, src/decode/zicfiss_extension.rs:33-42. -/
def parse_rd (inst : BitVec 32) (opkind : ZicfissOpcode) : RustM (Option Nat) := do
  let rd := (← slice inst 11 7).toNat
  match opkind with
  | .SSPUSH | .SSPOPCHK => .ok (some 0)
  | .SSRDP | .SSAMOSWAP_W | .SSAMOSWAP_D => .ok (some rd)
  | .C_SSPUSH | .C_SSPOPCHK => .panic

/-- `zicfiss_extension::bit_32::parse_rs1`, src/decode/zicfiss_extension.rs:45-55. -/
def parse_rs1 (inst : BitVec 32) (opkind : ZicfissOpcode) : RustM (Option Nat) := do
  let rs1 := (← slice inst 19 15).toNat
  match opkind with
  | .SSPUSH => .ok (some 0)
  | .SSPOPCHK | .SSAMOSWAP_W | .SSAMOSWAP_D => .ok (some rs1)
  | .SSRDP => .ok none
  | .C_SSPUSH | .C_SSPOPCHK => .panic

/-- `zicfiss_extension::bit_32::parse_rs2`, src/decode/zicfiss_extension.rs:58-67. -/
def parse_rs2 (inst : BitVec 32) (opkind : ZicfissOpcode) : RustM (Option Nat) := do
  let rs2 := (← slice inst 24 20).toNat
  match opkind with
  | .SSPUSH | .SSAMOSWAP_W | .SSAMOSWAP_D => .ok (some rs2)
  | .SSPOPCHK | .SSRDP => .ok none
  | .C_SSPUSH | .C_SSPOPCHK => .panic

/-- `zicfiss_extension::bit_32::parse_imm`, src/decode/zicfiss_extension.rs:70-79. -/
def parse_imm (_inst : BitVec 32) (opkind : ZicfissOpcode) : RustM (Option Int) :=
  match opkind with
  | .SSPUSH | .SSPOPCHK | .SSRDP | .SSAMOSWAP_W | .SSAMOSWAP_D => .ok none
  | .C_SSPUSH | .C_SSPOPCHK => .panic

end Raki.Zicfiss

namespace Raki.Zicfiss16

/-- `zicfiss_extension::bit_16::parse_opcode`, src/decode/zicfiss_extension.rs:87-93. -/
def parse_opcode (inst : BitVec 16) (_isa : Isa) : RustM ZicfissOpcode :=
  match inst.toNat with
  | 0b0110_0000_1000_0001 => .ok .C_SSPUSH
  | 0b0110_0010_1000_0001 => .ok .C_SSPOPCHK
  | _ => .err .InvalidOpcode

/-- `zicfiss_extension::bit_16::parse_rd`, src/decode/zicfiss_extension.rs:96-102. -/
def parse_rd (_inst : BitVec 16) (opkind : ZicfissOpcode) : RustM (Option Nat) :=
  match opkind with
  | .C_SSPUSH => .ok (some 1)
  | .C_SSPOPCHK => .ok (some 5)
  | _ => .panic

/-- `zicfiss_extension::bit_16::parse_rs1`, src/decode/zicfiss_extension.rs:105-107. -/
def parse_rs1 (_inst : BitVec 16) (_opkind : ZicfissOpcode) : RustM (Option Nat) :=
  .ok none

/-- `zicfiss_extension::bit_16::parse_rs2`, src/decode/zicfiss_extension.rs:110-112. -/
def parse_rs2 (_inst : BitVec 16) (_opkind : ZicfissOpcode) : RustM (Option Nat) :=
  .ok none

/-- `zicfiss_extension::bit_16::parse_imm`, src/decode/zicfiss_extension.rs:115-117. -/
def parse_imm (_inst : BitVec 16) (_opkind : ZicfissOpcode) : RustM (Option Int) :=
  .ok none

end Raki.Zicfiss16
