import Verif.Model.DecodeUtil
/-!
# Base integer instructions: opcode, register and immediate parsing

Models `/repo/src/decode/base_i.rs`.
-/

namespace Raki.BaseI

open U32

/-- `base_i::bit_32::parse_opcode`, src/decode/base_i.rs:7-132. -/
def parse_opcode (inst : BitVec 32) (isa : Isa) : RustM BaseIOpcode := do
  let opmap ← tryU8 (← slice inst 6 0).toNat
  let funct3 ← tryU8 (← slice inst 14 12).toNat
  let funct5 ← tryU8 (← slice inst 24 20).toNat
  let funct6 ← tryU8 (← slice inst 31 26).toNat
  let funct7 ← tryU8 (← slice inst 31 25).toNat
  match opmap with
  | 0b011_0111 => .ok .LUI
  | 0b001_0111 => .ok .AUIPC
  | 0b110_1111 => .ok .JAL
  | 0b110_0111 => .ok .JALR
  | 0b110_0011 => (match funct3 with
    | 0b000 => .ok .BEQ
    | 0b001 => .ok .BNE
    | 0b100 => .ok .BLT
    | 0b101 => .ok .BGE
    | 0b110 => .ok .BLTU
    | 0b111 => .ok .BGEU
    | _ => .err .InvalidFunct3)
  | 0b000_0011 => (match funct3 with
    | 0b000 => .ok .LB
    | 0b001 => .ok .LH
    | 0b010 => .ok .LW
    | 0b011 => only_rv64 .LD isa
    | 0b100 => .ok .LBU
    | 0b101 => .ok .LHU
    | 0b110 => only_rv64 .LWU isa
    | _ => .err .InvalidFunct3)
  | 0b010_0011 => (match funct3 with
    | 0b000 => .ok .SB
    | 0b001 => .ok .SH
    | 0b010 => .ok .SW
    | 0b011 => only_rv64 .SD isa
    | _ => .err .InvalidFunct3)
  | 0b001_0011 => (match funct3 with
    | 0b000 => .ok .ADDI
    | 0b001 => (match isa with
      | .Rv32 => (match funct7 with
        | 0b000_0000 => .ok .SLLI
        | _ => .err .InvalidFunct7)
      | .Rv64 => (match funct6 with
        | 0b00_0000 => .ok .SLLI
        | _ => .err .InvalidFunct6))
    | 0b010 => .ok .SLTI
    | 0b011 => .ok .SLTIU
    | 0b100 => .ok .XORI
    | 0b101 => (match isa with
      | .Rv32 => (match funct7 with
        | 0b000_0000 => .ok .SRLI
        | 0b010_0000 => .ok .SRAI
        | _ => .err .InvalidFunct7)
      | .Rv64 => (match funct6 with
        | 0b00_0000 => .ok .SRLI
        | 0b01_0000 => .ok .SRAI
        | _ => .err .InvalidFunct6))
    | 0b110 => .ok .ORI
    | 0b111 => .ok .ANDI
    | _ => .err .InvalidFunct3)
  | 0b011_0011 => (match funct3 with
    | 0b000 => (match funct7 with
      | 0b000_0000 => .ok .ADD
      | 0b010_0000 => .ok .SUB
      | _ => .err .InvalidFunct7)
    | 0b001 => .ok .SLL
    | 0b010 => .ok .SLT
    | 0b011 => .ok .SLTU
    | 0b100 => .ok .XOR
    | 0b101 => (match funct7 with
      | 0b000_0000 => .ok .SRL
      | 0b010_0000 => .ok .SRA
      | _ => .err .InvalidFunct7)
    | 0b110 => .ok .OR
    | 0b111 => .ok .AND
    | _ => .err .InvalidFunct3)
  | 0b111_0011 => (match funct3 with
    | 0b000 => (match funct7 with
      | 0b000_0000 => (match funct5 with
        | 0b00000 => .ok .ECALL
        | 0b00001 => .ok .EBREAK
        | _ => .err .InvalidFunct5)
      | _ => .err .InvalidFunct7)
    | _ => .err .InvalidFunct3)
  | 0b001_1011 => (match funct3 with
    | 0b000 => only_rv64 .ADDIW isa
    | 0b001 => only_rv64 .SLLIW isa
    | 0b101 => (match funct7 with
      | 0b000_0000 => only_rv64 .SRLIW isa
      | 0b010_0000 => only_rv64 .SRAIW isa
      | _ => .err .InvalidFunct7)
    | _ => .err .InvalidFunct3)
  | 0b011_1011 => (match funct3 with
    | 0b000 => (match funct7 with
      | 0b000_0000 => only_rv64 .ADDW isa
      | 0b010_0000 => only_rv64 .SUBW isa
      | _ => .err .InvalidFunct7)
    | 0b001 => only_rv64 .SLLW isa
    | 0b101 => (match funct7 with
      | 0b000_0000 => only_rv64 .SRLW isa
      | 0b010_0000 => only_rv64 .SRAW isa
      | _ => .err .InvalidFunct7)
    | _ => .err .InvalidFunct3)
  | _ => .err .InvalidOpcode

/-- `base_i::bit_32::parse_rd`, src/decode/base_i.rs:134-180. -/
def parse_rd (inst : BitVec 32) (opkind : BaseIOpcode) : RustM (Option Nat) := do
  let rd := (← slice inst 11 7).toNat
  match opkind with
  | .LUI | .AUIPC | .JAL | .JALR | .LB | .LH | .LW | .LBU | .LHU | .ADDI | .SLTI | .SLTIU | .XORI
  | .ORI | .ANDI | .SLLI | .SRLI | .SRAI | .ADD | .SUB | .SLL | .SLT | .SLTU | .XOR | .SRL | .SRA
  | .OR | .AND | .LWU | .LD | .ADDIW | .SLLIW | .SRLIW | .SRAIW | .ADDW | .SUBW | .SLLW | .SRLW
  | .SRAW => .ok (some rd)
  | _ => .ok none

/-- `base_i::bit_32::parse_rs1`, src/decode/base_i.rs:182-235. -/
def parse_rs1 (inst : BitVec 32) (opkind : BaseIOpcode) : RustM (Option Nat) := do
  let rs1 := (← slice inst 19 15).toNat
  match opkind with
  | .JALR | .BEQ | .BNE | .BLT | .BGE | .BLTU | .BGEU | .LB | .LH | .LW | .LBU | .LHU | .SB | .SH
  | .SW | .ADDI | .SLTI | .SLTIU | .XORI | .ORI | .ANDI | .SLLI | .SRLI | .SRAI | .ADD | .SUB
  | .SLL | .SLT | .SLTU | .XOR | .SRL | .SRA | .OR | .AND | .LWU | .LD | .SD | .ADDIW | .SLLIW
  | .SRLIW | .SRAIW | .ADDW | .SUBW | .SLLW | .SRLW | .SRAW => .ok (some rs1)
  | _ => .ok none

/-- `base_i::bit_32::parse_rs2`, src/decode/base_i.rs:237-271. -/
def parse_rs2 (inst : BitVec 32) (opkind : BaseIOpcode) : RustM (Option Nat) := do
  let rs2 := (← slice inst 24 20).toNat
  match opkind with
  | .BEQ | .BNE | .BLT | .BGE | .BLTU | .BGEU | .SB | .SH | .SW | .ADD | .SUB | .SLL | .SLT
  | .SLTU | .XOR | .SRL | .SRA | .OR | .AND | .SD | .ADDW | .SUBW | .SLLW | .SRLW
  | .SRAW => .ok (some rs2)
  | _ => .ok none

/-- `base_i::bit_32::parse_imm`, src/decode/base_i.rs:275-337.
The Rust closures are computations run only where they are called. -/
def parse_imm (inst : BitVec 32) (opkind : BaseIOpcode) (isa : Isa) : RustM (Option Int) :=
  let U_type : RustM Int := do .ok (asI32 (← slice inst 31 12))
  let I_type : RustM Int := do
    let imm32 := asI32 (← slice inst 31 20)
    to_signed_nbit imm32 12
  let S_type : RustM Int := do
    let imm32 := asI32 ((← set (← slice inst 11 7) [4, 3, 2, 1, 0])
      ||| (← set (← slice inst 31 25) [11, 10, 9, 8, 7, 6, 5]))
    to_signed_nbit imm32 12
  let B_type : RustM Int := do
    let imm32 := asI32 ((← set (← slice inst 11 7) [4, 3, 2, 1, 11])
      ||| (← set (← slice inst 31 25) [12, 10, 9, 8, 7, 6, 5]))
    to_signed_nbit imm32 13
  let J_type : RustM Int := do
    let imm32 := asI32 (← set (← slice inst 31 12)
      [20, 10, 9, 8, 7, 6, 5, 4, 3, 2, 1, 11, 19, 18, 17, 16, 15, 14, 13, 12])
    to_signed_nbit imm32 21
  let shamt5 : RustM (BitVec 32) := slice inst 24 20
  let shamt6 : RustM (BitVec 32) := slice inst 25 20
  match opkind with
  -- u-type
  | .LUI | .AUIPC => do .ok (some (← U_type))
  -- j-type
  | .JAL => do .ok (some (← J_type))
  -- b-type
  | .BEQ | .BNE | .BLT | .BGE | .BLTU | .BGEU => do .ok (some (← B_type))
  -- i-type
  | .JALR | .LB | .LH | .LW | .LBU | .LHU | .ADDI | .SLTI | .SLTIU | .XORI | .ORI | .ANDI
  | .LWU | .ADDIW | .LD => do .ok (some (← I_type))
  -- s-type
  | .SD | .SB | .SH | .SW => do .ok (some (← S_type))
  | .SRAI | .SLLI | .SRLI => (match isa with
    | .Rv32 => do .ok (some (asI32 (← shamt5)))
    | .Rv64 => do .ok (some (asI32 (← shamt6))))
  | .SLLIW | .SRLIW | .SRAIW => do .ok (some (asI32 (← shamt5)))
  | _ => .ok none

end Raki.BaseI
