import Verif.Release.Rust
import Verif.Model.Lib
/-!
# The decoder in a release build

Written by `tools/release.py` from `lean/Verif/Model`: the same functions, each citing the Rust source it
models, over the arithmetic of `Verif.Release.Rust`, which wraps where a debug build panics.
-/

/-! ### DecodeUtil -/

namespace Raki.Release


/-- `DecodeUtil::to_signed_nbit`, src/decode.rs:157-164. -/
def to_signed_nbit (imm32 : Int) (bit_size : Nat) : RustM Int := do
  let p ← chkI32 (2 ^ bit_size)
  let m ← chkI32 (p - 1)
  let imm32 := andI32 imm32 m
  let k ← subNat bit_size 1
  let s ← sarI32 imm32 k
  if andI32 s 0x1 = 1 then
    let p ← chkI32 (2 ^ bit_size)
    chkI32 (imm32 - p)
  else
    .ok imm32

/-- The loop of `set`: `for (i, m) in mask.iter().rev().enumerate()
{ inst |= ((self >> i) & 0x1) << m }`, on the reversed mask. -/
def setLoop (self : BitVec 32) : List Nat → Nat → BitVec 32 → RustM (BitVec 32)
  | [], _, inst => .ok inst
  | m :: ms, i, inst => do
    let a ← shrU self i
    let b ← shlU (a &&& 0x1) m
    setLoop self ms (i + 1) (inst ||| b)

namespace U32

/-- `<u32 as DecodeUtil>::slice`, src/decode/inst_32.rs:124-127. -/
def slice (self : BitVec 32) (end_ start : Nat) : RustM (BitVec 32) := do
  rAssert (decide (end_ ≥ start))
  let a ← shrU self start
  let d ← subNat end_ start
  let p ← powU 32 2 ((d + 1) % 2 ^ 32)
  let m ← subU p 1
  .ok (a &&& m)

/-- `<u32 as DecodeUtil>::set`, src/decode/inst_32.rs:174-181. -/
def set (self : BitVec 32) (mask : List Nat) : RustM (BitVec 32) :=
  setLoop self mask.reverse 0 0

/-- `<u32 as DecodeUtil>::parse_extension`, src/decode/inst_32.rs:129-172. -/
def parse_extension (self : BitVec 32) : RustM Extensions := do
  let opmap ← tryU8 (← slice self 6 0).toNat
  let funct3 ← tryU8 (← slice self 14 12).toNat
  let funct5 ← tryU8 (← slice self 31 27).toNat
  let funct7 ← tryU8 (← slice self 31 25).toNat
  let csr ← tryU16 (← slice self 31 20).toNat
  match opmap with
  | 0b000_1111 => (match funct3 with
    | 0b000 => .ok .Zifencei
    | 0b010 => .ok .Zicboz
    | _ => .err .UnknownExtension)
  | 0b010_1111 => (match funct5 with
    | 0b00000 | 0b00001 | 0b00010 | 0b00011 | 0b00100 | 0b01000 | 0b01100 | 0b10000
    | 0b10100 | 0b11000 | 0b11100 => .ok .A
    | 0b01001 => .ok .Zicfiss
    | _ => .err .UnknownExtension)
  | 0b011_0011 => (match funct7 with
    | 0b000_0001 => .ok .M
    | _ => .ok .BaseI)
  | 0b011_1011 => (match funct7 with
    | 0b000_0000 | 0b010_0000 => .ok .BaseI
    | 0b000_0001 => .ok .M
    | _ => .err .UnknownExtension)
  | 0b111_0011 => (match funct3 with
    | 0b000 => (match funct7 with
      | 0b000_0000 => .ok .BaseI
      | _ => .ok .Priv)
    | 0b010 =>
      -- csrrs rd, (cycle|time|instret), zero
      if (0xc00 ≤ csr ∧ csr ≤ 0xc02) ∨ (0xc80 ≤ csr ∧ csr ≤ 0xc82) then .ok .Zicntr
      else .ok .Zicsr
    | 0b100 => .ok .Zicfiss
    | _ => .ok .Zicsr)
  | _ => .ok .BaseI

end U32

namespace U16

/-- `<u16 as DecodeUtil>::slice`, src/decode/inst_16.rs:77-80. -/
def slice (self : BitVec 16) (end_ start : Nat) : RustM (BitVec 16) := do
  rAssert (decide (end_ ≥ start))
  let a ← shrU self start
  let d ← subNat end_ start
  let p ← powU 16 2 ((d + 1) % 2 ^ 32)
  let m ← subU p 1
  .ok (a &&& m)

/-- `<u16 as DecodeUtil>::set`, src/decode/inst_16.rs:89-96 (`u32::from(self)` is zero extension). -/
def set (self : BitVec 16) (mask : List Nat) : RustM (BitVec 32) :=
  setLoop (self.setWidth 32) mask.reverse 0 0

/-- `<u16 as DecodeUtil>::parse_extension`, src/decode/inst_16.rs:82-87. -/
def parse_extension (self : BitVec 16) : RustM Extensions :=
  match self.toNat with
  | 0b0110_0000_1000_0001 | 0b0110_0010_1000_0001 => .ok .Zicfiss
  | _ => .ok .C

end U16

end Raki.Release

/-! ### BaseI -/

namespace Raki.Release.BaseI

open Raki.Release.U32

/-- `base_i::bit_32::parse_opcode`, src/decode/base_i.rs:7-132. -/
def parse_opcode (inst : BitVec 32) (isa : Isa) : RustM BaseIOpcode := do
  let opmap ← tryU8 (← slice inst 6 0).toNat
  let funct3 ← tryU8 (← slice inst 14 12).toNat
  let funct5 ← tryU8 (← slice inst 24 20).toNat
  let funct6 ← tryU8 (← slice inst 31 26).toNat
  let funct7 ← tryU8 (← slice inst 31 25).toNat
  match opmap with
  | 0b011_0111 => .ok .LUI
  | 0b001_0111 => .ok .AUIPC
  | 0b110_1111 => .ok .JAL
  | 0b110_0111 => .ok .JALR
  | 0b110_0011 => (match funct3 with
    | 0b000 => .ok .BEQ
    | 0b001 => .ok .BNE
    | 0b100 => .ok .BLT
    | 0b101 => .ok .BGE
    | 0b110 => .ok .BLTU
    | 0b111 => .ok .BGEU
    | _ => .err .InvalidFunct3)
  | 0b000_0011 => (match funct3 with
    | 0b000 => .ok .LB
    | 0b001 => .ok .LH
    | 0b010 => .ok .LW
    | 0b011 => only_rv64 .LD isa
    | 0b100 => .ok .LBU
    | 0b101 => .ok .LHU
    | 0b110 => only_rv64 .LWU isa
    | _ => .err .InvalidFunct3)
  | 0b010_0011 => (match funct3 with
    | 0b000 => .ok .SB
    | 0b001 => .ok .SH
    | 0b010 => .ok .SW
    | 0b011 => only_rv64 .SD isa
    | _ => .err .InvalidFunct3)
  | 0b001_0011 => (match funct3 with
    | 0b000 => .ok .ADDI
    | 0b001 => (match isa with
      | .Rv32 => (match funct7 with
        | 0b000_0000 => .ok .SLLI
        | _ => .err .InvalidFunct7)
      | .Rv64 => (match funct6 with
        | 0b00_0000 => .ok .SLLI
        | _ => .err .InvalidFunct6))
    | 0b010 => .ok .SLTI
    | 0b011 => .ok .SLTIU
    | 0b100 => .ok .XORI
    | 0b101 => (match isa with
      | .Rv32 => (match funct7 with
        | 0b000_0000 => .ok .SRLI
        | 0b010_0000 => .ok .SRAI
        | _ => .err .InvalidFunct7)
      | .Rv64 => (match funct6 with
        | 0b00_0000 => .ok .SRLI
        | 0b01_0000 => .ok .SRAI
        | _ => .err .InvalidFunct6))
    | 0b110 => .ok .ORI
    | 0b111 => .ok .ANDI
    | _ => .err .InvalidFunct3)
  | 0b011_0011 => (match funct3 with
    | 0b000 => (match funct7 with
      | 0b000_0000 => .ok .ADD
      | 0b010_0000 => .ok .SUB
      | _ => .err .InvalidFunct7)
    | 0b001 => .ok .SLL
    | 0b010 => .ok .SLT
    | 0b011 => .ok .SLTU
    | 0b100 => .ok .XOR
    | 0b101 => (match funct7 with
      | 0b000_0000 => .ok .SRL
      | 0b010_0000 => .ok .SRA
      | _ => .err .InvalidFunct7)
    | 0b110 => .ok .OR
    | 0b111 => .ok .AND
    | _ => .err .InvalidFunct3)
  | 0b111_0011 => (match funct3 with
    | 0b000 => (match funct7 with
      | 0b000_0000 => (match funct5 with
        | 0b00000 => .ok .ECALL
        | 0b00001 => .ok .EBREAK
        | _ => .err .InvalidFunct5)
      | _ => .err .InvalidFunct7)
    | _ => .err .InvalidFunct3)
  | 0b001_1011 => (match funct3 with
    | 0b000 => only_rv64 .ADDIW isa
    | 0b001 => only_rv64 .SLLIW isa
    | 0b101 => (match funct7 with
      | 0b000_0000 => only_rv64 .SRLIW isa
      | 0b010_0000 => only_rv64 .SRAIW isa
      | _ => .err .InvalidFunct7)
    | _ => .err .InvalidFunct3)
  | 0b011_1011 => (match funct3 with
    | 0b000 => (match funct7 with
      | 0b000_0000 => only_rv64 .ADDW isa
      | 0b010_0000 => only_rv64 .SUBW isa
      | _ => .err .InvalidFunct7)
    | 0b001 => only_rv64 .SLLW isa
    | 0b101 => (match funct7 with
      | 0b000_0000 => only_rv64 .SRLW isa
      | 0b010_0000 => only_rv64 .SRAW isa
      | _ => .err .InvalidFunct7)
    | _ => .err .InvalidFunct3)
  | _ => .err .InvalidOpcode

/-- `base_i::bit_32::parse_rd`, src/decode/base_i.rs:134-180. -/
def parse_rd (inst : BitVec 32) (opkind : BaseIOpcode) : RustM (Option Nat) := do
  let rd := (← slice inst 11 7).toNat
  match opkind with
  | .LUI | .AUIPC | .JAL | .JALR | .LB | .LH | .LW | .LBU | .LHU | .ADDI | .SLTI | .SLTIU | .XORI
  | .ORI | .ANDI | .SLLI | .SRLI | .SRAI | .ADD | .SUB | .SLL | .SLT | .SLTU | .XOR | .SRL | .SRA
  | .OR | .AND | .LWU | .LD | .ADDIW | .SLLIW | .SRLIW | .SRAIW | .ADDW | .SUBW | .SLLW | .SRLW
  | .SRAW => .ok (some rd)
  | _ => .ok none

/-- `base_i::bit_32::parse_rs1`, src/decode/base_i.rs:182-235. -/
def parse_rs1 (inst : BitVec 32) (opkind : BaseIOpcode) : RustM (Option Nat) := do
  let rs1 := (← slice inst 19 15).toNat
  match opkind with
  | .JALR | .BEQ | .BNE | .BLT | .BGE | .BLTU | .BGEU | .LB | .LH | .LW | .LBU | .LHU | .SB | .SH
  | .SW | .ADDI | .SLTI | .SLTIU | .XORI | .ORI | .ANDI | .SLLI | .SRLI | .SRAI | .ADD | .SUB
  | .SLL | .SLT | .SLTU | .XOR | .SRL | .SRA | .OR | .AND | .LWU | .LD | .SD | .ADDIW | .SLLIW
  | .SRLIW | .SRAIW | .ADDW | .SUBW | .SLLW | .SRLW | .SRAW => .ok (some rs1)
  | _ => .ok none

/-- `base_i::bit_32::parse_rs2`, src/decode/base_i.rs:237-271. -/
def parse_rs2 (inst : BitVec 32) (opkind : BaseIOpcode) : RustM (Option Nat) := do
  let rs2 := (← slice inst 24 20).toNat
  match opkind with
  | .BEQ | .BNE | .BLT | .BGE | .BLTU | .BGEU | .SB | .SH | .SW | .ADD | .SUB | .SLL | .SLT
  | .SLTU | .XOR | .SRL | .SRA | .OR | .AND | .SD | .ADDW | .SUBW | .SLLW | .SRLW
  | .SRAW => .ok (some rs2)
  | _ => .ok none

/-- `base_i::bit_32::parse_imm`, src/decode/base_i.rs:275-337.
The Rust closures are computations run only where they are called. -/
def parse_imm (inst : BitVec 32) (opkind : BaseIOpcode) (isa : Isa) : RustM (Option Int) :=
  let U_type : RustM Int := do .ok (asI32 (← slice inst 31 12))
  let I_type : RustM Int := do
    let imm32 := asI32 (← slice inst 31 20)
    to_signed_nbit imm32 12
  let S_type : RustM Int := do
    let imm32 := asI32 ((← set (← slice inst 11 7) [4, 3, 2, 1, 0])
      ||| (← set (← slice inst 31 25) [11, 10, 9, 8, 7, 6, 5]))
    to_signed_nbit imm32 12
  let B_type : RustM Int := do
    let imm32 := asI32 ((← set (← slice inst 11 7) [4, 3, 2, 1, 11])
      ||| (← set (← slice inst 31 25) [12, 10, 9, 8, 7, 6, 5]))
    to_signed_nbit imm32 13
  let J_type : RustM Int := do
    let imm32 := asI32 (← set (← slice inst 31 12)
      [20, 10, 9, 8, 7, 6, 5, 4, 3, 2, 1, 11, 19, 18, 17, 16, 15, 14, 13, 12])
    to_signed_nbit imm32 21
  let shamt5 : RustM (BitVec 32) := slice inst 24 20
  let shamt6 : RustM (BitVec 32) := slice inst 25 20
  match opkind with
  -- u-type
  | .LUI | .AUIPC => do .ok (some (← U_type))
  -- j-type
  | .JAL => do .ok (some (← J_type))
  -- b-type
  | .BEQ | .BNE | .BLT | .BGE | .BLTU | .BGEU => do .ok (some (← B_type))
  -- i-type
  | .JALR | .LB | .LH | .LW | .LBU | .LHU | .ADDI | .SLTI | .SLTIU | .XORI | .ORI | .ANDI
  | .LWU | .ADDIW | .LD => do .ok (some (← I_type))
  -- s-type
  | .SD | .SB | .SH | .SW => do .ok (some (← S_type))
  | .SRAI | .SLLI | .SRLI => (match isa with
    | .Rv32 => do .ok (some (asI32 (← shamt5)))
    | .Rv64 => do .ok (some (asI32 (← shamt6))))
  | .SLLIW | .SRLIW | .SRAIW => do .ok (some (asI32 (← shamt5)))
  | _ => .ok none

end Raki.Release.BaseI

/-! ### M -/

namespace Raki.Release.M

open Raki.Release.U32

/-- `m_extension::bit_32::parse_opcode`, src/decode/m_extension.rs:6-32. -/
def parse_opcode (inst : BitVec 32) (isa : Isa) : RustM MOpcode := do
  let opmap ← tryU8 (← slice inst 6 0).toNat
  let funct3 ← tryU8 (← slice inst 14 12).toNat
  match opmap with
  | 0b011_0011 => (match funct3 with
    | 0b000 => .ok .MUL
    | 0b001 => .ok .MULH
    | 0b010 => .ok .MULHSU
    | 0b011 => .ok .MULHU
    | 0b100 => .ok .DIV
    | 0b101 => .ok .DIVU
    | 0b110 => .ok .REM
    | 0b111 => .ok .REMU
    | _ => .err .InvalidFunct3)
  | 0b011_1011 => (match funct3 with
    | 0b000 => only_rv64 .MULW isa
    | 0b100 => only_rv64 .DIVW isa
    | 0b101 => only_rv64 .DIVUW isa
    | 0b110 => only_rv64 .REMW isa
    | 0b111 => only_rv64 .REMUW isa
    | _ => .err .InvalidFunct3)
  | _ => .err .InvalidOpcode

/-- `m_extension::bit_32::parse_rd`, src/decode/m_extension.rs:35-53. -/
def parse_rd (inst : BitVec 32) (opkind : MOpcode) : RustM (Option Nat) := do
  let rd := (← slice inst 11 7).toNat
  match opkind with
  | .MUL | .MULH | .MULHSU | .MULHU | .DIV | .DIVU | .REM | .REMU | .MULW | .DIVW | .DIVUW | .REMW
  | .REMUW => .ok (some rd)

/-- `m_extension::bit_32::parse_rs1`, src/decode/m_extension.rs:56-74. -/
def parse_rs1 (inst : BitVec 32) (opkind : MOpcode) : RustM (Option Nat) := do
  let rs1 := (← slice inst 19 15).toNat
  match opkind with
  | .MUL | .MULH | .MULHSU | .MULHU | .DIV | .DIVU | .REM | .REMU | .MULW | .DIVW | .DIVUW | .REMW
  | .REMUW => .ok (some rs1)

/-- `m_extension::bit_32::parse_rs2`, src/decode/m_extension.rs:77-95. -/
def parse_rs2 (inst : BitVec 32) (opkind : MOpcode) : RustM (Option Nat) := do
  let rs2 := (← slice inst 24 20).toNat
  match opkind with
  | .MUL | .MULH | .MULHSU | .MULHU | .DIV | .DIVU | .REM | .REMU | .MULW | .DIVW | .DIVUW | .REMW
  | .REMUW => .ok (some rs2)

/-- `m_extension::bit_32::parse_imm`, src/decode/m_extension.rs:98-100. -/
def parse_imm (_inst : BitVec 32) (_opkind : MOpcode) : RustM (Option Int) :=
  .ok none

end Raki.Release.M

/-! ### A -/

namespace Raki.Release.A

open Raki.Release.U32

/-- `a_extension::bit_32::parse_opcode`, src/decode/a_extension.rs:6-45. -/
def parse_opcode (inst : BitVec 32) (isa : Isa) : RustM AOpcode := do
  let opmap ← tryU8 (← slice inst 6 0).toNat
  let funct3 ← tryU8 (← slice inst 14 12).toNat
  let funct7 ← tryU8 (← slice inst 31 27).toNat
  match opmap with
  | 0b010_1111 => (match funct3 with
    | 0b010 => (match funct7 with
      | 0b00010 => .ok .LR_W
      | 0b00011 => .ok .SC_W
      | 0b00001 => .ok .AMOSWAP_W
      | 0b00000 => .ok .AMOADD_W
      | 0b00100 => .ok .AMOXOR_W
      | 0b01100 => .ok .AMOAND_W
      | 0b01000 => .ok .AMOOR_W
      | 0b10000 => .ok .AMOMIN_W
      | 0b10100 => .ok .AMOMAX_W
      | 0b11000 => .ok .AMOMINU_W
      | 0b11100 => .ok .AMOMAXU_W
      | _ => .err .InvalidFunct7)
    | 0b011 => (match funct7 with
      | 0b00010 => only_rv64 .LR_D isa
      | 0b00011 => only_rv64 .SC_D isa
      | 0b00001 => only_rv64 .AMOSWAP_D isa
      | 0b00000 => only_rv64 .AMOADD_D isa
      | 0b00100 => only_rv64 .AMOXOR_D isa
      | 0b01100 => only_rv64 .AMOAND_D isa
      | 0b01000 => only_rv64 .AMOOR_D isa
      | 0b10000 => only_rv64 .AMOMIN_D isa
      | 0b10100 => only_rv64 .AMOMAX_D isa
      | 0b11000 => only_rv64 .AMOMINU_D isa
      | 0b11100 => only_rv64 .AMOMAXU_D isa
      | _ => .err .InvalidFunct7)
    | _ => .err .InvalidFunct3)
  | _ => .err .InvalidOpcode

/-- `a_extension::bit_32::parse_rd`, src/decode/a_extension.rs:48-75. -/
def parse_rd (inst : BitVec 32) (opkind : AOpcode) : RustM (Option Nat) := do
  let rd := (← slice inst 11 7).toNat
  match opkind with
  | .LR_W | .SC_W | .AMOSWAP_W | .AMOADD_W | .AMOXOR_W | .AMOAND_W | .AMOOR_W | .AMOMIN_W
  | .AMOMAX_W | .AMOMINU_W | .AMOMAXU_W | .LR_D | .SC_D | .AMOSWAP_D | .AMOADD_D | .AMOXOR_D
  | .AMOAND_D | .AMOOR_D | .AMOMIN_D | .AMOMAX_D | .AMOMINU_D | .AMOMAXU_D => .ok (some rd)

/-- `a_extension::bit_32::parse_rs1`, src/decode/a_extension.rs:78-105. -/
def parse_rs1 (inst : BitVec 32) (opkind : AOpcode) : RustM (Option Nat) := do
  let rs1 := (← slice inst 19 15).toNat
  match opkind with
  | .LR_W | .SC_W | .AMOSWAP_W | .AMOADD_W | .AMOXOR_W | .AMOAND_W | .AMOOR_W | .AMOMIN_W
  | .AMOMAX_W | .AMOMINU_W | .AMOMAXU_W | .LR_D | .SC_D | .AMOSWAP_D | .AMOADD_D | .AMOXOR_D
  | .AMOAND_D | .AMOOR_D | .AMOMIN_D | .AMOMAX_D | .AMOMINU_D | .AMOMAXU_D => .ok (some rs1)

/-- `a_extension::bit_32::parse_rs2`, src/decode/a_extension.rs:107-133. -/
def parse_rs2 (inst : BitVec 32) (opkind : AOpcode) : RustM (Option Nat) := do
  let rs2 := (← slice inst 24 20).toNat
  match opkind with
  | .SC_W | .AMOSWAP_W | .AMOADD_W | .AMOXOR_W | .AMOAND_W | .AMOOR_W | .AMOMIN_W | .AMOMAX_W
  | .AMOMINU_W | .AMOMAXU_W | .SC_D | .AMOSWAP_D | .AMOADD_D | .AMOXOR_D | .AMOAND_D | .AMOOR_D
  | .AMOMIN_D | .AMOMAX_D | .AMOMINU_D | .AMOMAXU_D => .ok (some rs2)
  | _ => .ok none

/-- `a_extension::bit_32::parse_imm`, src/decode/a_extension.rs:137-164. -/
def parse_imm (inst : BitVec 32) (opkind : AOpcode) : RustM (Option Int) :=
  let aq_and_rl : RustM Int := do .ok (asI32 (← slice inst 26 25))
  match opkind with
  | .LR_W | .SC_W | .AMOSWAP_W | .AMOADD_W | .AMOXOR_W | .AMOAND_W | .AMOOR_W | .AMOMIN_W
  | .AMOMAX_W | .AMOMINU_W | .AMOMAXU_W | .LR_D | .SC_D | .AMOSWAP_D | .AMOADD_D | .AMOXOR_D
  | .AMOAND_D | .AMOOR_D | .AMOMIN_D | .AMOMAX_D | .AMOMINU_D
  | .AMOMAXU_D => do .ok (some (← aq_and_rl))

end Raki.Release.A

/-! ### Zifencei -/

namespace Raki.Release.Zifencei

open Raki.Release.U32

/-- `zifencei_extension::bit_32::parse_opcode`, src/decode/zifencei_extension.rs:5-12. -/
def parse_opcode (inst : BitVec 32) : RustM ZifenceiOpcode := do
  let opmap ← tryU8 (← slice inst 6 0).toNat
  match opmap with
  | 0b000_1111 => .ok .FENCE
  | _ => .err .InvalidOpcode

/-- `zifencei_extension::bit_32::parse_rd`, src/decode/zifencei_extension.rs:15-21. -/
def parse_rd (inst : BitVec 32) (opkind : ZifenceiOpcode) : RustM (Option Nat) := do
  let rd := (← slice inst 11 7).toNat
  match opkind with
  | .FENCE => .ok (some rd)

/-- `zifencei_extension::bit_32::parse_rs1`, src/decode/zifencei_extension.rs:24-30. -/
def parse_rs1 (inst : BitVec 32) (opkind : ZifenceiOpcode) : RustM (Option Nat) := do
  let rs1 := (← slice inst 19 15).toNat
  match opkind with
  | .FENCE => .ok (some rs1)

/-- `zifencei_extension::bit_32::parse_rs2`, src/decode/zifencei_extension.rs:33-37. -/
def parse_rs2 (_inst : BitVec 32) (opkind : ZifenceiOpcode) : RustM (Option Nat) := do
  match opkind with
  | .FENCE => .ok none

/-- `zifencei_extension::bit_32::parse_imm`, src/decode/zifencei_extension.rs:40-45. -/
def parse_imm (inst : BitVec 32) (opkind : ZifenceiOpcode) : RustM (Option Int) := do
  let fm_pred_succ ← slice inst 31 20
  match opkind with
  | .FENCE => .ok (some (asI32 fm_pred_succ))

end Raki.Release.Zifencei

/-! ### Zicboz -/

namespace Raki.Release.Zicboz

open Raki.Release.U32

/-- `zicboz_extension::bit_32::parse_opcode`, src/decode/zicboz_extension.rs:5-24. -/
def parse_opcode (inst : BitVec 32) : RustM ZicbozOpcode := do
  let opmap ← tryU8 (← slice inst 6 0).toNat
  let funct3 ← tryU8 (← slice inst 14 12).toNat
  let field_11_7 ← tryU8 (← slice inst 11 7).toNat
  let cbo_num ← tryU16 (← slice inst 31 20).toNat
  match opmap with
  | 0b000_1111 => (match funct3 with
    | 0b010 => (match cbo_num with
      | 0b100 => (match field_11_7 with
        | 0x0 => .ok .CBO_ZERO
        | _ => .err .InvalidOpcode)
      | _ => .err .InvalidOpcode)
    | _ => .err .InvalidFunct3)
  | _ => .err .InvalidOpcode

/-- `zicboz_extension::bit_32::parse_rd`, src/decode/zicboz_extension.rs:27-29. -/
def parse_rd (_inst : BitVec 32) (_opkind : ZicbozOpcode) : RustM (Option Nat) :=
  .ok none

/-- `zicboz_extension::bit_32::parse_rs1`, src/decode/zicboz_extension.rs:32-37. -/
def parse_rs1 (inst : BitVec 32) (opkind : ZicbozOpcode) : RustM (Option Nat) := do
  let rs1 ← tryU8 (← slice inst 19 15).toNat
  match opkind with
  | .CBO_ZERO => .ok (some rs1)

/-- `zicboz_extension::bit_32::parse_rs2`, src/decode/zicboz_extension.rs:40-42. -/
def parse_rs2 (_inst : BitVec 32) (_opkind : ZicbozOpcode) : RustM (Option Nat) :=
  .ok none

/-- `zicboz_extension::bit_32::parse_imm`, src/decode/zicboz_extension.rs:45-47. -/
def parse_imm (_inst : BitVec 32) (_opkind : ZicbozOpcode) : RustM (Option Int) :=
  .ok none

end Raki.Release.Zicboz

/-! ### Zicsr -/

namespace Raki.Release.Zicsr

open Raki.Release.U32

/-- `zicsr_extension::bit_32::parse_opcode`, src/decode/zicsr_extension.rs:5-21. -/
def parse_opcode (inst : BitVec 32) : RustM ZicsrOpcode := do
  let opmap ← tryU8 (← slice inst 6 0).toNat
  let funct3 ← tryU8 (← slice inst 14 12).toNat
  match opmap with
  | 0b111_0011 => (match funct3 with
    | 0b001 => .ok .CSRRW
    | 0b010 => .ok .CSRRS
    | 0b011 => .ok .CSRRC
    | 0b101 => .ok .CSRRWI
    | 0b110 => .ok .CSRRSI
    | 0b111 => .ok .CSRRCI
    | _ => .err .InvalidFunct3)
  | _ => .err .InvalidOpcode

/-- `zicsr_extension::bit_32::parse_rd`, src/decode/zicsr_extension.rs:24-35. -/
def parse_rd (inst : BitVec 32) (opkind : ZicsrOpcode) : RustM (Option Nat) := do
  let rd := (← slice inst 11 7).toNat
  match opkind with
  | .CSRRW | .CSRRS | .CSRRC | .CSRRWI | .CSRRSI | .CSRRCI => .ok (some rd)

/-- `zicsr_extension::bit_32::parse_rs1`, src/decode/zicsr_extension.rs:37-45. -/
def parse_rs1 (inst : BitVec 32) (opkind : ZicsrOpcode) : RustM (Option Nat) := do
  let rs1 := (← slice inst 19 15).toNat
  match opkind with
  | .CSRRW | .CSRRS | .CSRRC => .ok (some rs1)
  | _ => .ok none

/-- `zicsr_extension::bit_32::parse_rs2`, src/decode/zicsr_extension.rs:48-59. -/
def parse_rs2 (inst : BitVec 32) (opkind : ZicsrOpcode) : RustM (Option Nat) := do
  let csr := (← slice inst 31 20).toNat
  match opkind with
  | .CSRRW | .CSRRS | .CSRRC | .CSRRWI | .CSRRSI | .CSRRCI => .ok (some csr)

/-- `zicsr_extension::bit_32::parse_imm`, src/decode/zicsr_extension.rs:62-68. -/
def parse_imm (inst : BitVec 32) (opkind : ZicsrOpcode) : RustM (Option Int) := do
  let uimm ← slice inst 19 15
  match opkind with
  | .CSRRWI | .CSRRSI | .CSRRCI => .ok (some (asI32 uimm))
  | _ => .ok none

end Raki.Release.Zicsr

/-! ### Zicfiss -/

namespace Raki.Release.Zicfiss

open Raki.Release.U32

/-- `zicfiss_extension::bit_32::parse_opcode`, src/decode/zicfiss_extension.rs:5-30. -/
def parse_opcode (inst : BitVec 32) : RustM ZicfissOpcode := do
  let opmap ← tryU8 (← slice inst 6 0).toNat
  let funct3 ← tryU8 (← slice inst 14 12).toNat
  let rs1 ← tryU8 (← slice inst 19 15).toNat
  let funct7_rs2 ← tryU16 (← slice inst 31 20).toNat
  match opmap with
  | 0b111_0011 => (match funct3 with
    | 0b100 => (match funct7_rs2 with
      | 0b1100_1110_0001 | 0b1100_1110_0101 => .ok .SSPUSH
      | 0b1100_1101_1100 => (match rs1 with
        | 0b0_0000 => .ok .SSRDP
        | _ => .ok .SSPOPCHK)
      | _ => .err .InvalidOpcode)
    | _ => .err .InvalidFunct3)
  | 0b010_1111 => (match funct3 with
    | 0b010 => .ok .SSAMOSWAP_W
    | 0b011 => .ok .SSAMOSWAP_D
    | _ => .err .InvalidFunct3)
  | _ => .err .InvalidOpcode

/-- `zicfiss_extension::bit_32::parse_rd`, src/decode/zicfiss_extension.rs:33-42. -/
def parse_rd (inst : BitVec 32) (opkind : ZicfissOpcode) : RustM (Option Nat) := do
  let rd := (← slice inst 11 7).toNat
  match opkind with
  | .SSPUSH | .SSPOPCHK => .ok (some 0)
  | .SSRDP | .SSAMOSWAP_W | .SSAMOSWAP_D => .ok (some rd)
  | .C_SSPUSH | .C_SSPOPCHK => .panic

/-- `zicfiss_extension::bit_32::parse_rs1`, src/decode/zicfiss_extension.rs:45-55. -/
def parse_rs1 (inst : BitVec 32) (opkind : ZicfissOpcode) : RustM (Option Nat) := do
  let rs1 := (← slice inst 19 15).toNat
  match opkind with
  | .SSPUSH => .ok (some 0)
  | .SSPOPCHK | .SSAMOSWAP_W | .SSAMOSWAP_D => .ok (some rs1)
  | .SSRDP => .ok none
  | .C_SSPUSH | .C_SSPOPCHK => .panic

/-- `zicfiss_extension::bit_32::parse_rs2`, src/decode/zicfiss_extension.rs:58-67. -/
def parse_rs2 (inst : BitVec 32) (opkind : ZicfissOpcode) : RustM (Option Nat) := do
  let rs2 := (← slice inst 24 20).toNat
  match opkind with
  | .SSPUSH | .SSAMOSWAP_W | .SSAMOSWAP_D => .ok (some rs2)
  | .SSPOPCHK | .SSRDP => .ok none
  | .C_SSPUSH | .C_SSPOPCHK => .panic

/-- `zicfiss_extension::bit_32::parse_imm`, src/decode/zicfiss_extension.rs:70-79. -/
def parse_imm (_inst : BitVec 32) (opkind : ZicfissOpcode) : RustM (Option Int) :=
  match opkind with
  | .SSPUSH | .SSPOPCHK | .SSRDP | .SSAMOSWAP_W | .SSAMOSWAP_D => .ok none
  | .C_SSPUSH | .C_SSPOPCHK => .panic

end Raki.Release.Zicfiss

namespace Raki.Release.Zicfiss16

/-- `zicfiss_extension::bit_16::parse_opcode`, src/decode/zicfiss_extension.rs:87-93. -/
def parse_opcode (inst : BitVec 16) (_isa : Isa) : RustM ZicfissOpcode :=
  match inst.toNat with
  | 0b0110_0000_1000_0001 => .ok .C_SSPUSH
  | 0b0110_0010_1000_0001 => .ok .C_SSPOPCHK
  | _ => .err .InvalidOpcode

/-- `zicfiss_extension::bit_16::parse_rd`, src/decode/zicfiss_extension.rs:96-102. -/
def parse_rd (_inst : BitVec 16) (opkind : ZicfissOpcode) : RustM (Option Nat) :=
  match opkind with
  | .C_SSPUSH => .ok (some 1)
  | .C_SSPOPCHK => .ok (some 5)
  | _ => .panic

/-- `zicfiss_extension::bit_16::parse_rs1`, src/decode/zicfiss_extension.rs:105-107. -/
def parse_rs1 (_inst : BitVec 16) (_opkind : ZicfissOpcode) : RustM (Option Nat) :=
  .ok none

/-- `zicfiss_extension::bit_16::parse_rs2`, src/decode/zicfiss_extension.rs:110-112. -/
def parse_rs2 (_inst : BitVec 16) (_opkind : ZicfissOpcode) : RustM (Option Nat) :=
  .ok none

/-- `zicfiss_extension::bit_16::parse_imm`, src/decode/zicfiss_extension.rs:115-117. -/
def parse_imm (_inst : BitVec 16) (_opkind : ZicfissOpcode) : RustM (Option Int) :=
  .ok none

end Raki.Release.Zicfiss16

/-! ### Zicntr -/

namespace Raki.Release.Zicntr

open Raki.Release.U32

/-- `zicntr_extension::bit_32::parse_opcode`, src/decode/zicntr_extension.rs:5-25. -/
def parse_opcode (inst : BitVec 32) : RustM ZicntrOpcode := do
  let opmap ← tryU8 (← slice inst 6 0).toNat
  let funct3 ← tryU8 (← slice inst 14 12).toNat
  let csr_num ← tryU16 (← slice inst 31 20).toNat
  match opmap with
  | 0b111_0011 => (match funct3 with
    | 0b010 => (match csr_num with
      | 0xc00 => .ok .RDCYCLE
      | 0xc01 => .ok .RDTIME
      | 0xc02 => .ok .RDINSTRET
      | 0xc80 => .ok .RDCYCLE_H
      | 0xc81 => .ok .RDTIME_H
      | 0xc82 => .ok .RDINSTRET_H
      | _ => .err .InvalidOpcode)
    | _ => .err .InvalidFunct3)
  | _ => .err .InvalidOpcode

/-- `zicntr_extension::bit_32::parse_rd`, src/decode/zicntr_extension.rs:28-38. -/
def parse_rd (inst : BitVec 32) (opkind : ZicntrOpcode) : RustM (Option Nat) := do
  let rd := (← slice inst 11 7).toNat
  match opkind with
  | .RDCYCLE | .RDTIME | .RDINSTRET | .RDCYCLE_H | .RDTIME_H | .RDINSTRET_H => .ok (some rd)

/-- `zicntr_extension::bit_32::parse_rs1`, src/decode/zicntr_extension.rs:41-50. -/
def parse_rs1 (_inst : BitVec 32) (opkind : ZicntrOpcode) : RustM (Option Nat) := do
  match opkind with
  | .RDCYCLE | .RDTIME | .RDINSTRET | .RDCYCLE_H | .RDTIME_H | .RDINSTRET_H => .ok none

/-- `zicntr_extension::bit_32::parse_rs2`, src/decode/zicntr_extension.rs:53-62. -/
def parse_rs2 (_inst : BitVec 32) (opkind : ZicntrOpcode) : RustM (Option Nat) := do
  match opkind with
  | .RDCYCLE | .RDTIME | .RDINSTRET | .RDCYCLE_H | .RDTIME_H | .RDINSTRET_H => .ok none

/-- `zicntr_extension::bit_32::parse_imm`, src/decode/zicntr_extension.rs:65-74. -/
def parse_imm (_inst : BitVec 32) (opkind : ZicntrOpcode) : RustM (Option Int) :=
  match opkind with
  | .RDCYCLE | .RDTIME | .RDINSTRET | .RDCYCLE_H | .RDTIME_H | .RDINSTRET_H => .ok none

end Raki.Release.Zicntr

/-! ### Priv -/

namespace Raki.Release.Priv

open Raki.Release.U32

/-- `priv_extension::bit_32::parse_opcode`, src/decode/priv_extension.rs:5-19. -/
def parse_opcode (inst : BitVec 32) : RustM PrivOpcode := do
  let _opmap ← tryU8 (← slice inst 6 0).toNat
  let _funct3 ← tryU8 (← slice inst 14 12).toNat
  let funct7 ← tryU8 (← slice inst 31 25).toNat
  match inst.toNat with
  | 0b0001_0000_0010_0000_0000_0000_0111_0011 => .ok .SRET
  | 0b0011_0000_0010_0000_0000_0000_0111_0011 => .ok .MRET
  | 0b0001_0000_0101_0000_0000_0000_0111_0011 => .ok .WFI
  | _ => (match funct7 with
    | 0b000_1001 => .ok .SFENCE_VMA
    | _ => .err .InvalidFunct7)

/-- `priv_extension::bit_32::parse_rd`, src/decode/priv_extension.rs:22-24. -/
def parse_rd (_inst : BitVec 32) (_opkind : PrivOpcode) : RustM (Option Nat) :=
  .ok none

/-- `priv_extension::bit_32::parse_rs1`, src/decode/priv_extension.rs:26-33. -/
def parse_rs1 (inst : BitVec 32) (opkind : PrivOpcode) : RustM (Option Nat) := do
  let rs1 := (← slice inst 19 15).toNat
  match opkind with
  | .SFENCE_VMA => .ok (some rs1)
  | _ => .ok none

/-- `priv_extension::bit_32::parse_rs2`, src/decode/priv_extension.rs:35-42. -/
def parse_rs2 (inst : BitVec 32) (opkind : PrivOpcode) : RustM (Option Nat) := do
  let rs2 := (← slice inst 24 20).toNat
  match opkind with
  | .SFENCE_VMA => .ok (some rs2)
  | _ => .ok none

/-- `priv_extension::bit_32::parse_imm`, src/decode/priv_extension.rs:45-47. -/
def parse_imm (_inst : BitVec 32) (_opkind : PrivOpcode) : RustM (Option Int) :=
  .ok none

end Raki.Release.Priv

/-! ### C -/

namespace Raki.Release.C

open Raki.Release.U16

/-- `c_extension::bit_16::quadrant0`, src/decode/c_extension.rs:6-15. -/
def quadrant0 (_inst : BitVec 16) (opmap : Nat) (isa : Isa) : RustM COpcode :=
  match opmap with
  | 0b000 => .ok .ADDI4SPN
  | 0b010 => .ok .LW
  | 0b011 => only_rv64 .LD isa
  | 0b110 => .ok .SW
  | 0b111 => only_rv64 .SD isa
  | _ => .err .InvalidOpcode

/-- `c_extension::bit_16::quadrant1`, src/decode/c_extension.rs:17-63. -/
def quadrant1 (inst : BitVec 16) (opmap : Nat) (isa : Isa) : RustM COpcode := do
  let sr_flag ← tryU8 (← slice inst 11 10).toNat
  let lo_flag ← tryU8 (← slice inst 6 5).toNat
  let mi_flag ← tryU8 (← slice inst 11 7).toNat
  let bit_12 ← tryU8 (← slice inst 12 12).toNat
  match opmap with
  | 0b000 => (match mi_flag with
    | 0b00000 => .ok .NOP
    | _ => .ok .ADDI)
  | 0b001 => (match isa with
    | .Rv32 => .ok .JAL
    | .Rv64 => .ok .ADDIW)
  | 0b010 => .ok .LI
  | 0b011 => (match mi_flag with
    | 0b00010 => .ok .ADDI16SP
    | _ => .ok .LUI)
  | 0b100 => (match sr_flag with
    | 0b00 => .ok .SRLI
    | 0b01 => .ok .SRAI
    | 0b10 => .ok .ANDI
    | 0b11 => (match bit_12 with
      | 0b0 => (match lo_flag with
        | 0b00 => .ok .SUB
        | 0b01 => .ok .XOR
        | 0b10 => .ok .OR
        | 0b11 => .ok .AND
        | _ => .err .InvalidOpcode)
      | 0b1 => (match lo_flag with
        | 0b00 => only_rv64 .SUBW isa
        | 0b01 => only_rv64 .ADDW isa
        | _ => .err .InvalidOpcode)
      | _ => .panic)
    | _ => .err .InvalidOpcode)
  | 0b101 => .ok .J
  | 0b110 => .ok .BEQZ
  | 0b111 => .ok .BNEZ
  | _ => .err .InvalidOpcode

/-- `c_extension::bit_16::quadrant2`, src/decode/c_extension.rs:65-92. -/
def quadrant2 (inst : BitVec 16) (opmap : Nat) (isa : Isa) : RustM COpcode := do
  let lo_flag ← tryU8 (← slice inst 6 2).toNat
  let mi_flag ← tryU8 (← slice inst 11 7).toNat
  let hi_flag ← tryU8 (← slice inst 12 12).toNat
  match opmap with
  | 0b000 => .ok .SLLI
  | 0b010 => .ok .LWSP
  | 0b011 => only_rv64 .LDSP isa
  | 0b100 => (match hi_flag with
    | 0b0 => (match lo_flag with
      | 0b0 => .ok .JR
      | _ => .ok .MV)
    | 0b1 => (match mi_flag with
      | 0b0 => .ok .EBREAK
      | _ => (match lo_flag with
        | 0b0 => .ok .JALR
        | _ => .ok .ADD))
    | _ => .err .InvalidOpcode)
  | 0b110 => .ok .SWSP
  | 0b111 => only_rv64 .SDSP isa
  | _ => .err .InvalidOpcode

/-- `c_extension::bit_16::parse_opcode`, src/decode/c_extension.rs:94-108. -/
def parse_opcode (inst : BitVec 16) (isa : Isa) : RustM COpcode := do
  let opmap ← tryU8 (← slice inst 15 13).toNat
  let quadrant ← tryU8 (← slice inst 1 0).toNat
  if inst.toNat = 0b0000_0000_0000_0000 then
    .err .InvalidOpcode
  else
    match quadrant with
    | 0b00 => quadrant0 inst opmap isa
    | 0b01 => quadrant1 inst opmap isa
    | 0b10 => quadrant2 inst opmap isa
    | _ => .err .InvalidOpcode

/-- `c_extension::bit_16::parse_rd`, src/decode/c_extension.rs:110-139. -/
def parse_rd (inst : BitVec 16) (opkind : COpcode) : RustM (Option Nat) := do
  let q0_rd := (← addU (← slice inst 4 2) 8).toNat
  let q1_rd := (← addU (← slice inst 9 7) 8).toNat
  let q1_wide_rd := (← slice inst 11 7).toNat
  let q2_rd := (← slice inst 11 7).toNat
  match opkind with
  | .ADDI4SPN | .LW | .LD => .ok (some q0_rd)
  | .SRLI | .SRAI | .ANDI | .SUB | .XOR | .OR | .AND | .ADDW | .SUBW => .ok (some q1_rd)
  | .LI | .LUI | .ADDI | .ADDIW | .ADDI16SP => .ok (some q1_wide_rd)
  | .SLLI | .LWSP | .LDSP | .MV | .ADD => .ok (some q2_rd)
  | _ => .ok none

/-- `c_extension::bit_16::parse_rs1`, src/decode/c_extension.rs:141-168. -/
def parse_rs1 (inst : BitVec 16) (opkind : COpcode) : RustM (Option Nat) := do
  let q0_rs1 := (← addU (← slice inst 9 7) 8).toNat
  let q1_rs1 := (← addU (← slice inst 9 7) 8).toNat
  let q1_addi_rs1 := (← slice inst 11 7).toNat
  let q2_rs1 := (← slice inst 11 7).toNat
  match opkind with
  | .LW | .LD | .SW | .SD => .ok (some q0_rs1)
  | .ADDI | .ADDIW | .ADDI16SP => .ok (some q1_addi_rs1)
  | .SRLI | .SRAI | .ANDI | .SUB | .XOR | .OR | .AND | .BEQZ | .BNEZ | .SUBW
  | .ADDW => .ok (some q1_rs1)
  | .SLLI | .JR | .JALR | .ADD => .ok (some q2_rs1)
  | _ => .ok none

/-- `c_extension::bit_16::parse_rs2`, src/decode/c_extension.rs:170-195. -/
def parse_rs2 (inst : BitVec 16) (opkind : COpcode) : RustM (Option Nat) := do
  let q0_rs2 := (← addU (← slice inst 4 2) 8).toNat
  let q1_rs2 := (← addU (← slice inst 4 2) 8).toNat
  let q2_rs2 := (← slice inst 6 2).toNat
  match opkind with
  | .SW | .SD => .ok (some q0_rs2)
  | .SUB | .XOR | .OR | .AND | .SUBW | .ADDW => .ok (some q1_rs2)
  | .JR | .JALR | .MV | .ADD | .SWSP | .SDSP => .ok (some q2_rs2)
  | _ => .ok none

/-- `c_extension::bit_16::parse_imm`, src/decode/c_extension.rs:199-263.
The Rust closures are computations run only where they are called. -/
def parse_imm (inst : BitVec 16) (opkind : COpcode) : RustM (Option Int) :=
  let q0_uimm : RustM (BitVec 32) := do .ok ((← set (← slice inst 12 10) [5, 4, 3])
      ||| (← set (← slice inst 6 5) [2, 6]))
  let q0_uimm_64 : RustM (BitVec 32) := do .ok ((← set (← slice inst 12 10) [5, 4, 3])
      ||| (← set (← slice inst 6 5) [7, 6]))
  let q0_nzuimm : RustM (BitVec 32) := do .ok ((← set (← slice inst 12 5) [5, 4, 9, 8, 7, 6, 2, 3]))
  let q1_nzuimm : RustM (BitVec 32) := do .ok ((← set (← slice inst 6 2) [4, 3, 2, 1, 0])
      ||| (← set (← slice inst 12 12) [5]))
  let q1_nzimm : RustM Int := do
    let imm16 := asI32 ((← set (← slice inst 6 2) [4, 3, 2, 1, 0])
      ||| (← set (← slice inst 12 12) [5]))
    to_signed_nbit imm16 6
  let q1_imm : RustM Int := do
    let imm16 := asI32 ((← set (← slice inst 6 2) [4, 3, 2, 1, 0])
      ||| (← set (← slice inst 12 12) [5]))
    to_signed_nbit imm16 6
  let q1_j_imm : RustM Int := do
    let imm16 := asI32 ((← set (← slice inst 12 2) [11, 4, 9, 8, 10, 6, 7, 3, 2, 1, 5]))
    to_signed_nbit imm16 12
  let q1_b_imm : RustM Int := do
    let imm16 := asI32 ((← set (← slice inst 6 2) [7, 6, 2, 1, 5])
      ||| (← set (← slice inst 12 10) [8, 4, 3]))
    to_signed_nbit imm16 9
  let q1_16sp_nzimm : RustM Int := do
    let imm16 := asI32 ((← set (← slice inst 6 2) [4, 6, 8, 7, 5])
      ||| (← set (← slice inst 12 12) [9]))
    to_signed_nbit imm16 10
  let q1_lui_imm : RustM Int := do
    let imm16 := asI32 ((← set (← slice inst 6 2) [16, 15, 14, 13, 12])
      ||| (← set (← slice inst 12 12) [17]))
    to_signed_nbit imm16 18
  let q2_imm : RustM Int := do .ok (asI32 ((← set (← slice inst 6 2) [4, 3, 2, 1, 0])
      ||| (← set (← slice inst 12 12) [5])))
  let q2_lwsp_imm : RustM Int := do .ok (asI32 ((← set (← slice inst 6 2) [4, 3, 2, 7, 6])
      ||| (← set (← slice inst 12 12) [5])))
  let q2_ldsp_imm : RustM Int := do .ok (asI32 ((← set (← slice inst 6 2) [4, 3, 8, 7, 6])
      ||| (← set (← slice inst 12 12) [5])))
  let q2_swsp_imm : RustM Int := do .ok (asI32 ((← set (← slice inst 12 7) [5, 4, 3, 2, 7, 6])))
  let q2_sdsp_imm : RustM Int := do .ok (asI32 ((← set (← slice inst 12 7) [5, 4, 3, 8, 7, 6])))
  match opkind with
  | .ADDI4SPN => do .ok (some (asI32 (← q0_nzuimm)))
  | .LW | .SW => do .ok (some (asI32 (← q0_uimm)))
  | .LD | .SD => do .ok (some (asI32 (← q0_uimm_64)))
  | .ADDIW | .LI | .ANDI => do .ok (some (← q1_imm))
  | .NOP | .ADDI => do .ok (some (← q1_nzimm))
  | .SRLI | .SRAI => do .ok (some (asI32 (← q1_nzuimm)))
  | .JAL | .J => do .ok (some (← q1_j_imm))
  | .BEQZ | .BNEZ => do .ok (some (← q1_b_imm))
  | .LUI => do .ok (some (← q1_lui_imm))
  | .ADDI16SP => do .ok (some (← q1_16sp_nzimm))
  | .SLLI => do .ok (some (← q2_imm))
  | .LWSP => do .ok (some (← q2_lwsp_imm))
  | .LDSP => do .ok (some (← q2_ldsp_imm))
  | .SWSP => do .ok (some (← q2_swsp_imm))
  | .SDSP => do .ok (some (← q2_sdsp_imm))
  | _ => .ok none

end Raki.Release.C

/-! ### Inst32 -/

namespace Raki.Release.U32

/-- `<u32 as Decode>::parse_opcode`, src/decode/inst_32.rs:30-60. -/
def parse_opcode (self : BitVec 32) (isa : Isa) : RustM OpcodeKind :=
  let extension := parse_extension self
  match extension with
  | .ok .BaseI => do .ok (.BaseI (← BaseI.parse_opcode self isa))
  | .ok .M => do .ok (.M (← M.parse_opcode self isa))
  | .ok .A => do .ok (.A (← A.parse_opcode self isa))
  | .ok .Zifencei => do .ok (.Zifencei (← Zifencei.parse_opcode self))
  | .ok .Zicsr => do .ok (.Zicsr (← Zicsr.parse_opcode self))
  | .ok .Zicfiss => do .ok (.Zicfiss (← Zicfiss.parse_opcode self))
  | .ok .Zicntr => do .ok (.Zicntr (← Zicntr.parse_opcode self))
  | .ok .Zicboz => do .ok (.Zicboz (← Zicboz.parse_opcode self))
  | .ok .Priv => do .ok (.Priv (← Priv.parse_opcode self))
  | .ok .C => .err .Not32BitInst
  | .err decoding_err => .err decoding_err
  | .panic => .panic

/-- `<u32 as Decode>::parse_rd`, src/decode/inst_32.rs:62-75. -/
def parse_rd (self : BitVec 32) (opkind : OpcodeKind) : RustM (Option Nat) :=
  match opkind with
  | .BaseI opc => BaseI.parse_rd self opc
  | .M opc => M.parse_rd self opc
  | .A opc => A.parse_rd self opc
  | .Zifencei opc => Zifencei.parse_rd self opc
  | .Zicsr opc => Zicsr.parse_rd self opc
  | .Zicfiss opc => Zicfiss.parse_rd self opc
  | .Zicntr opc => Zicntr.parse_rd self opc
  | .Zicboz opc => Zicboz.parse_rd self opc
  | .Priv opc => Priv.parse_rd self opc
  | .C _ => .err .Not32BitInst

/-- `<u32 as Decode>::parse_rs1`, src/decode/inst_32.rs:77-90. -/
def parse_rs1 (self : BitVec 32) (opkind : OpcodeKind) : RustM (Option Nat) :=
  match opkind with
  | .BaseI opc => BaseI.parse_rs1 self opc
  | .M opc => M.parse_rs1 self opc
  | .A opc => A.parse_rs1 self opc
  | .Zifencei opc => Zifencei.parse_rs1 self opc
  | .Zicsr opc => Zicsr.parse_rs1 self opc
  | .Zicfiss opc => Zicfiss.parse_rs1 self opc
  | .Zicntr opc => Zicntr.parse_rs1 self opc
  | .Zicboz opc => Zicboz.parse_rs1 self opc
  | .Priv opc => Priv.parse_rs1 self opc
  | .C _ => .err .Not32BitInst

/-- `<u32 as Decode>::parse_rs2`, src/decode/inst_32.rs:92-105. -/
def parse_rs2 (self : BitVec 32) (opkind : OpcodeKind) : RustM (Option Nat) :=
  match opkind with
  | .BaseI opc => BaseI.parse_rs2 self opc
  | .M opc => M.parse_rs2 self opc
  | .A opc => A.parse_rs2 self opc
  | .Zifencei opc => Zifencei.parse_rs2 self opc
  | .Zicsr opc => Zicsr.parse_rs2 self opc
  | .Zicfiss opc => Zicfiss.parse_rs2 self opc
  | .Zicntr opc => Zicntr.parse_rs2 self opc
  | .Zicboz opc => Zicboz.parse_rs2 self opc
  | .Priv opc => Priv.parse_rs2 self opc
  | .C _ => .err .Not32BitInst

/-- `<u32 as Decode>::parse_imm`, src/decode/inst_32.rs:107-120. -/
def parse_imm (self : BitVec 32) (opkind : OpcodeKind) (isa : Isa) : RustM (Option Int) :=
  match opkind with
  | .BaseI opc => BaseI.parse_imm self opc isa
  | .M opc => M.parse_imm self opc
  | .A opc => A.parse_imm self opc
  | .Zifencei opc => Zifencei.parse_imm self opc
  | .Zicsr opc => Zicsr.parse_imm self opc
  | .Zicfiss opc => Zicfiss.parse_imm self opc
  | .Zicntr opc => Zicntr.parse_imm self opc
  | .Zicboz opc => Zicboz.parse_imm self opc
  | .Priv opc => Priv.parse_imm self opc
  | .C _ => .err .Not32BitInst

/-- `<u32 as Decode>::decode`, src/decode/inst_32.rs:11-28. -/
def decode (self : BitVec 32) (isa : Isa) : RustM Instruction := do
  let new_opc ← parse_opcode self isa
  let new_rd ← parse_rd self new_opc
  let new_rs1 ← parse_rs1 self new_opc
  let new_rs2 ← parse_rs2 self new_opc
  let new_imm ← parse_imm self new_opc isa
  let new_fmt := new_opc.getFormat
  .ok {
    opc := new_opc
    rd := new_rd
    rs1 := new_rs1
    rs2 := new_rs2
    imm := new_imm
    instFormat := new_fmt
    isCompressed := false }

end Raki.Release.U32

/-! ### Inst16 -/

namespace Raki.Release.U16

/-- `<u16 as Decode>::parse_opcode`, src/decode/inst_16.rs:31-41. -/
def parse_opcode (self : BitVec 16) (isa : Isa) : RustM OpcodeKind :=
  let extension := parse_extension self
  match extension with
  | .ok .C => do .ok (.C (← C.parse_opcode self isa))
  | .ok .Zicfiss => do .ok (.Zicfiss (← Zicfiss16.parse_opcode self isa))
  | .panic => .panic
  | _ => .err .Not16BitInst

/-- `<u16 as Decode>::parse_rd`, src/decode/inst_16.rs:43-49. -/
def parse_rd (self : BitVec 16) (opkind : OpcodeKind) : RustM (Option Nat) :=
  match opkind with
  | .C opc => C.parse_rd self opc
  | .Zicfiss opc => Zicfiss16.parse_rd self opc
  | _ => .err .Not16BitInst

/-- `<u16 as Decode>::parse_rs1`, src/decode/inst_16.rs:51-57. -/
def parse_rs1 (self : BitVec 16) (opkind : OpcodeKind) : RustM (Option Nat) :=
  match opkind with
  | .C opc => C.parse_rs1 self opc
  | .Zicfiss opc => Zicfiss16.parse_rs1 self opc
  | _ => .err .Not16BitInst

/-- `<u16 as Decode>::parse_rs2`, src/decode/inst_16.rs:59-65. -/
def parse_rs2 (self : BitVec 16) (opkind : OpcodeKind) : RustM (Option Nat) :=
  match opkind with
  | .C opc => C.parse_rs2 self opc
  | .Zicfiss opc => Zicfiss16.parse_rs2 self opc
  | _ => .err .Not16BitInst

/-- `<u16 as Decode>::parse_imm`, src/decode/inst_16.rs:67-73. -/
def parse_imm (self : BitVec 16) (opkind : OpcodeKind) (_isa : Isa) : RustM (Option Int) :=
  match opkind with
  | .C opc => C.parse_imm self opc
  | .Zicfiss opc => Zicfiss16.parse_imm self opc
  | _ => .err .Not16BitInst

/-- `<u16 as Decode>::decode`, src/decode/inst_16.rs:8-29. -/
def decode (self : BitVec 16) (isa : Isa) : RustM Instruction :=
  if self.toNat = 0 then
    .err .IllegalInstruction
  else do
    let new_opc ← parse_opcode self isa
    let new_rd ← parse_rd self new_opc
    let new_rs1 ← parse_rs1 self new_opc
    let new_rs2 ← parse_rs2 self new_opc
    let new_imm ← parse_imm self new_opc isa
    let new_fmt := new_opc.getFormat
    .ok {
      opc := new_opc
      rd := new_rd
      rs1 := new_rs1
      rs2 := new_rs2
      imm := new_imm
      instFormat := new_fmt
      isCompressed := true }

end Raki.Release.U16

/-! ### Lib -/

namespace Raki.Release

/-- `<Instruction as TryFrom<usize>>::try_from`, src/lib.rs:75-88.  A `usize` of whatever target
width is the natural number it denotes. -/
def try_from (inst : Nat) : RustM Instruction :=
  if inst &&& 0b11 = 0b11 then do
    let w ← tryU32 inst
    U32.decode (BitVec.ofNat 32 w) .Rv64
  else do
    let h ← tryU16 inst
    U16.decode (BitVec.ofNat 16 h) .Rv64

end Raki.Release
