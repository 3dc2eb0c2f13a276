import Verif.Model.DecodeUtil
/-!
# C extension: opcode, register and immediate parsing

Models `/repo/src/decode/c_extension.rs`.
-/

namespace Raki.C

open U16

/-- `c_extension::bit_16::quadrant0`, src/decode/c_extension.rs:6-15. -/
def quadrant0 (_inst : BitVec 16) (opmap : Nat) (isa : Isa) : RustM COpcode :=
  match opmap with
  | 0b000 => .ok .ADDI4SPN
  | 0b010 => .ok .LW
  | 0b011 => only_rv64 .LD isa
  | 0b110 => .ok .SW
  | 0b111 => only_rv64 .SD isa
  | _ => .err .InvalidOpcode

/-- `c_extension::bit_16::quadrant1`, src/decode/c_extension.rs:17-63. -/
def quadrant1 (inst : BitVec 16) (opmap : Nat) (isa : Isa) : RustM COpcode := do
  let sr_flag ← tryU8 (← slice inst 11 10).toNat
  let lo_flag ← tryU8 (← slice inst 6 5).toNat
  let mi_flag ← tryU8 (← slice inst 11 7).toNat
  let bit_12 ← tryU8 (← slice inst 12 12).toNat
  match opmap with
  | 0b000 => (match mi_flag with
    | 0b00000 => .ok .NOP
    | _ => .ok .ADDI)
  | 0b001 => (match isa with
    | .Rv32 => .ok .JAL
    | .Rv64 => .ok .ADDIW)
  | 0b010 => .ok .LI
  | 0b011 => (match mi_flag with
    | 0b00010 => .ok .ADDI16SP
    | _ => .ok .LUI)
  | 0b100 => (match sr_flag with
    | 0b00 => .ok .SRLI
    | 0b01 => .ok .SRAI
    | 0b10 => .ok .ANDI
    | 0b11 => (match bit_12 with
      | 0b0 => (match lo_flag with
        | 0b00 => .ok .SUB
        | 0b01 => .ok .XOR
        | 0b10 => .ok .OR
        | 0b11 => .ok .AND
        | _ => .err .InvalidOpcode)
      | 0b1 => (match lo_flag with
        | 0b00 => only_rv64 .SUBW isa
        | 0b01 => only_rv64 .ADDW isa
        | _ => .err .InvalidOpcode)
      | _ => .panic)
    | _ => .err .InvalidOpcode)
  | 0b101 => .ok .J
  | 0b110 => .ok .BEQZ
  | 0b111 => .ok .BNEZ
  | _ => .err .InvalidOpcode

/-- `c_extension::bit_16::quadrant2`, src/decode/c_extension.rs:65-92. -/
def quadrant2 (inst : BitVec 16) (opmap : Nat) (isa : Isa) : RustM COpcode := do
  let lo_flag ← tryU8 (← slice inst 6 2).toNat
  let mi_flag ← tryU8 (← slice inst 11 7).toNat
  let hi_flag ← tryU8 (← slice inst 12 12).toNat
  match opmap with
  | 0b000 => .ok .SLLI
  | 0b010 => .ok .LWSP
  | 0b011 => only_rv64 .LDSP isa
  | 0b100 => (match hi_flag with
    | 0b0 => (match lo_flag with
      | 0b0 => .ok .JR
      | _ => .ok .MV)
    | 0b1 => (match mi_flag with
      | 0b0 => .ok .EBREAK
      | _ => (match lo_flag with
        | 0b0 => .ok .JALR
        | _ => .ok .ADD))
    | _ => .err .InvalidOpcode)
  | 0b110 => .ok .SWSP
  | 0b111 => only_rv64 .SDSP isa
  | _ => .err .InvalidOpcode

/-- `c_extension::bit_16::parse_opcode`, src/decode/c_extension.rs:94-108. -/
def parse_opcode (inst : BitVec 16) (isa : Isa) : RustM COpcode := do
  let opmap ← tryU8 (← slice inst 15 13).toNat
  let quadrant ← tryU8 (← slice inst 1 0).toNat
  if inst.toNat = 0b0000_0000_0000_0000 then
    .err .InvalidOpcode
  else
    match quadrant with
    | 0b00 => quadrant0 inst opmap isa
    | 0b01 => quadrant1 inst opmap isa
    | 0b10 => quadrant2 inst opmap isa
    | _ => .err .InvalidOpcode

/-- `c_extension::bit_16::parse_rd`, src/decode/c_extension.rs:110-139. -/
def parse_rd (inst : BitVec 16) (opkind : COpcode) : RustM (Option Nat) := do
  let q0_rd := (← addU (← slice inst 4 2) 8).toNat
  let q1_rd := (← addU (← slice inst 9 7) 8).toNat
  let q1_wide_rd := (← slice inst 11 7).toNat
  let q2_rd := (← slice inst 11 7).toNat
  match opkind with
  | .ADDI4SPN | .LW | .LD => .ok (some q0_rd)
  | .SRLI | .SRAI | .ANDI | .SUB | .XOR | .OR | .AND | .ADDW | .SUBW => .ok (some q1_rd)
  | .LI | .LUI | .ADDI | .ADDIW | .ADDI16SP => .ok (some q1_wide_rd)
  | .SLLI | .LWSP | .LDSP | .MV | .ADD => .ok (some q2_rd)
  | _ => .ok none

/-- `c_extension::bit_16::parse_rs1`, src/decode/c_extension.rs:141-168. -/
def parse_rs1 (inst : BitVec 16) (opkind : COpcode) : RustM (Option Nat) := do
  let q0_rs1 := (← addU (← slice inst 9 7) 8).toNat
  let q1_rs1 := (← addU (← slice inst 9 7) 8).toNat
  let q1_addi_rs1 := (← slice inst 11 7).toNat
  let q2_rs1 := (← slice inst 11 7).toNat
  match opkind with
  | .LW | .LD | .SW | .SD => .ok (some q0_rs1)
  | .ADDI | .ADDIW | .ADDI16SP => .ok (some q1_addi_rs1)
  | .SRLI | .SRAI | .ANDI | .SUB | .XOR | .OR | .AND | .BEQZ | .BNEZ | .SUBW
  | .ADDW => .ok (some q1_rs1)
  | .SLLI | .JR | .JALR | .ADD => .ok (some q2_rs1)
  | _ => .ok none

/-- `c_extension::bit_16::parse_rs2`, src/decode/c_extension.rs:170-195. -/
def parse_rs2 (inst : BitVec 16) (opkind : COpcode) : RustM (Option Nat) := do
  let q0_rs2 := (← addU (← slice inst 4 2) 8).toNat
  let q1_rs2 := (← addU (← slice inst 4 2) 8).toNat
  let q2_rs2 := (← slice inst 6 2).toNat
  match opkind with
  | .SW | .SD => .ok (some q0_rs2)
  | .SUB | .XOR | .OR | .AND | .SUBW | .ADDW => .ok (some q1_rs2)
  | .JR | .JALR | .MV | .ADD | .SWSP | .SDSP => .ok (some q2_rs2)
  | _ => .ok none

/-- `c_extension::bit_16::parse_imm`, src/decode/c_extension.rs:199-263.
The Rust closures are computations run only where they are called. -/
def parse_imm (inst : BitVec 16) (opkind : COpcode) : RustM (Option Int) :=
  let q0_uimm : RustM (BitVec 32) := do .ok ((← set (← slice inst 12 10) [5, 4, 3])
      ||| (← set (← slice inst 6 5) [2, 6]))
  let q0_uimm_64 : RustM (BitVec 32) := do .ok ((← set (← slice inst 12 10) [5, 4, 3])
      ||| (← set (← slice inst 6 5) [7, 6]))
  let q0_nzuimm : RustM (BitVec 32) := do .ok ((← set (← slice inst 12 5) [5, 4, 9, 8, 7, 6, 2, 3]))
  let q1_nzuimm : RustM (BitVec 32) := do .ok ((← set (← slice inst 6 2) [4, 3, 2, 1, 0])
      ||| (← set (← slice inst 12 12) [5]))
  let q1_nzimm : RustM Int := do
    let imm16 := asI32 ((← set (← slice inst 6 2) [4, 3, 2, 1, 0])
      ||| (← set (← slice inst 12 12) [5]))
    to_signed_nbit imm16 6
  let q1_imm : RustM Int := do
    let imm16 := asI32 ((← set (← slice inst 6 2) [4, 3, 2, 1, 0])
      ||| (← set (← slice inst 12 12) [5]))
    to_signed_nbit imm16 6
  let q1_j_imm : RustM Int := do
    let imm16 := asI32 ((← set (← slice inst 12 2) [11, 4, 9, 8, 10, 6, 7, 3, 2, 1, 5]))
    to_signed_nbit imm16 12
  let q1_b_imm : RustM Int := do
    let imm16 := asI32 ((← set (← slice inst 6 2) [7, 6, 2, 1, 5])
      ||| (← set (← slice inst 12 10) [8, 4, 3]))
    to_signed_nbit imm16 9
  let q1_16sp_nzimm : RustM Int := do
    let imm16 := asI32 ((← set (← slice inst 6 2) [4, 6, 8, 7, 5])
      ||| (← set (← slice inst 12 12) [9]))
    to_signed_nbit imm16 10
  let q1_lui_imm : RustM Int := do
    let imm16 := asI32 ((← set (← slice inst 6 2) [16, 15, 14, 13, 12])
      ||| (← set (← slice inst 12 12) [17]))
    to_signed_nbit imm16 18
  let q2_imm : RustM Int := do .ok (asI32 ((← set (← slice inst 6 2) [4, 3, 2, 1, 0])
      ||| (← set (← slice inst 12 12) [5])))
  let q2_lwsp_imm : RustM Int := do .ok (asI32 ((← set (← slice inst 6 2) [4, 3, 2, 7, 6])
      ||| (← set (← slice inst 12 12) [5])))
  let q2_ldsp_imm : RustM Int := do .ok (asI32 ((← set (← slice inst 6 2) [4, 3, 8, 7, 6])
      ||| (← set (← slice inst 12 12) [5])))
  let q2_swsp_imm : RustM Int := do .ok (asI32 ((← set (← slice inst 12 7) [5, 4, 3, 2, 7, 6])))
  let q2_sdsp_imm : RustM Int := do .ok (asI32 ((← set (← slice inst 12 7) [5, 4, 3, 8, 7, 6])))
  match opkind with
  | .ADDI4SPN => do .ok (some (asI32 (← q0_nzuimm)))
  | .LW | .SW => do .ok (some (asI32 (← q0_uimm)))
  | .LD | .SD => do .ok (some (asI32 (← q0_uimm_64)))
  | .ADDIW | .LI | .ANDI => do .ok (some (← q1_imm))
  | .NOP | .ADDI => do .ok (some (← q1_nzimm))
  | .SRLI | .SRAI => do .ok (some (asI32 (← q1_nzuimm)))
  | .JAL | .J => do .ok (some (← q1_j_imm))
  | .BEQZ | .BNEZ => do .ok (some (← q1_b_imm))
  | .LUI => do .ok (some (← q1_lui_imm))
  | .ADDI16SP => do .ok (some (← q1_16sp_nzimm))
  | .SLLI => do .ok (some (← q2_imm))
  | .LWSP => do .ok (some (← q2_lwsp_imm))
  | .LDSP => do .ok (some (← q2_ldsp_imm))
  | .SWSP => do .ok (some (← q2_swsp_imm))
  | .SDSP => do .ok (some (← q2_sdsp_imm))
  | _ => .ok none

end Raki.C
