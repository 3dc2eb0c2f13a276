import Verif.Model.Rust
import Verif.Model.Types
/-!
# Decoding helpers

Models `/repo/src/decode.rs` and the `DecodeUtil` implementations in
`/repo/src/decode/inst_32.rs` and `/repo/src/decode/inst_16.rs`.
-/

namespace Raki

/-- `enum Extensions`, src/lib.rs:52-73. -/
inductive Extensions where
  | BaseI | M | A | C | Zifencei | Zicboz | Zicsr | Zicfiss | Zicntr | Priv
  deriving DecidableEq, Repr

/-- `only_rv64`, src/decode.rs:21-26. -/
def only_rv64 {α : Type} (opcode : α) (isa : Isa) : RustM α :=
  match isa with
  | .Rv32 => .err .OnlyRv64Inst
  | .Rv64 => .ok opcode

/-- `DecodeUtil::to_signed_nbit`, src/decode.rs:157-164. -/
def to_signed_nbit (imm32 : Int) (bit_size : Nat) : RustM Int := do
  let p ← chkI32 (2 ^ bit_size)
  let m ← chkI32 (p - 1)
  let imm32 := andI32 imm32 m
  let k ← subNat bit_size 1
  let s ← sarI32 imm32 k
  if andI32 s 0x1 = 1 then
    let p ← chkI32 (2 ^ bit_size)
    chkI32 (imm32 - p)
  else
    .ok imm32

/-- The loop of `set`: `for (i, m) in mask.iter().rev().enumerate()
{ inst |= ((self >> i) & 0x1) << m }`, on the reversed mask. -/
def setLoop (self : BitVec 32) : List Nat → Nat → BitVec 32 → RustM (BitVec 32)
  | [], _, inst => .ok inst
  | m :: ms, i, inst => do
    let a ← shrU self i
    let b ← shlU (a &&& 0x1) m
    setLoop self ms (i + 1) (inst ||| b)

namespace U32

/-- `<u32 as DecodeUtil>::slice`, src/decode/inst_32.rs:124-127. -/
def slice (self : BitVec 32) (end_ start : Nat) : RustM (BitVec 32) := do
  rAssert (decide (end_ ≥ start))
  let a ← shrU self start
  let d ← subNat end_ start
  let p ← powU 32 2 (d + 1)
  let m ← subU p 1
  .ok (a &&& m)

/-- `<u32 as DecodeUtil>::set`, src/decode/inst_32.rs:174-181. -/
def set (self : BitVec 32) (mask : List Nat) : RustM (BitVec 32) :=
  setLoop self mask.reverse 0 0

/-- `<u32 as DecodeUtil>::parse_extension`, src/decode/inst_32.rs:129-172. -/
def parse_extension (self : BitVec 32) : RustM Extensions := do
  let opmap ← tryU8 (← slice self 6 0).toNat
  let funct3 ← tryU8 (← slice self 14 12).toNat
  let funct5 ← tryU8 (← slice self 31 27).toNat
  let funct7 ← tryU8 (← slice self 31 25).toNat
  let csr ← tryU16 (← slice self 31 20).toNat
  match opmap with
  | 0b000_1111 => (match funct3 with
    | 0b000 => .ok .Zifencei
    | 0b010 => .ok .Zicboz
    | _ => .err .UnknownExtension)
  | 0b010_1111 => (match funct5 with
    | 0b00000 | 0b00001 | 0b00010 | 0b00011 | 0b00100 | 0b01000 | 0b01100 | 0b10000
    | 0b10100 | 0b11000 | 0b11100 => .ok .A
    | 0b01001 => .ok .Zicfiss
    | _ => .err .UnknownExtension)
  | 0b011_0011 => (match funct7 with
    | 0b000_0001 => .ok .M
    | _ => .ok .BaseI)
  | 0b011_1011 => (match funct7 with
    | 0b000_0000 | 0b010_0000 => .ok .BaseI
    | 0b000_0001 => .ok .M
    | _ => .err .UnknownExtension)
  | 0b111_0011 => (match funct3 with
    | 0b000 => (match funct7 with
      | 0b000_0000 => .ok .BaseI
      | _ => .ok .Priv)
    | 0b010 =>
      -- csrrs rd, (cycle|time|instret), zero
      if (0xc00 ≤ csr ∧ csr ≤ 0xc02) ∨ (0xc80 ≤ csr ∧ csr ≤ 0xc82) then .ok .Zicntr
      else .ok .Zicsr
    | 0b100 => .ok .Zicfiss
    | _ => .ok .Zicsr)
  | _ => .ok .BaseI

end U32

namespace U16

/-- `<u16 as DecodeUtil>::slice`, src/decode/inst_16.rs:77-80. -/
def slice (self : BitVec 16) (end_ start : Nat) : RustM (BitVec 16) := do
  rAssert (decide (end_ ≥ start))
  let a ← shrU self start
  let d ← subNat end_ start
  let p ← powU 16 2 (d + 1)
  let m ← subU p 1
  .ok (a &&& m)

/-- `<u16 as DecodeUtil>::set`, src/decode/inst_16.rs:89-96 (`u32::from(self)` is zero extension). -/
def set (self : BitVec 16) (mask : List Nat) : RustM (BitVec 32) :=
  setLoop (self.setWidth 32) mask.reverse 0 0

/-- `<u16 as DecodeUtil>::parse_extension`, src/decode/inst_16.rs:82-87. -/
def parse_extension (self : BitVec 16) : RustM Extensions :=
  match self.toNat with
  | 0b0110_0000_1000_0001 | 0b0110_0010_1000_0001 => .ok .Zicfiss
  | _ => .ok .C

end U16

end Raki
