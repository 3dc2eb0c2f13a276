import Verif.Model.C
import Verif.Model.Zicfiss
/-!
# The 16-bit decoder

Models `impl Decode for u16` in `/repo/src/decode/inst_16.rs`.
-/

namespace Raki.U16

/-- `<u16 as Decode>::parse_opcode`, src/decode/inst_16.rs:31-41. -/
def parse_opcode (self : BitVec 16) (isa : Isa) : RustM OpcodeKind :=
  let extension := parse_extension self
  match extension with
  | .ok .C => do .ok (.C (← C.parse_opcode self isa))
  | .ok .Zicfiss => do .ok (.Zicfiss (← Zicfiss16.parse_opcode self isa))
  | .panic => .panic
  | _ => .err .Not16BitInst

/-- `<u16 as Decode>::parse_rd`, src/decode/inst_16.rs:43-49. -/
def parse_rd (self : BitVec 16) (opkind : OpcodeKind) : RustM (Option Nat) :=
  match opkind with
  | .C opc => C.parse_rd self opc
  | .Zicfiss opc => Zicfiss16.parse_rd self opc
  | _ => .err .Not16BitInst

/-- `<u16 as Decode>::parse_rs1`, src/decode/inst_16.rs:51-57. -/
def parse_rs1 (self : BitVec 16) (opkind : OpcodeKind) : RustM (Option Nat) :=
  match opkind with
  | .C opc => C.parse_rs1 self opc
  | .Zicfiss opc => Zicfiss16.parse_rs1 self opc
  | _ => .err .Not16BitInst

/-- `<u16 as Decode>::parse_rs2`, src/decode/inst_16.rs:59-65. -/
def parse_rs2 (self : BitVec 16) (opkind : OpcodeKind) : RustM (Option Nat) :=
  match opkind with
  | .C opc => C.parse_rs2 self opc
  | .Zicfiss opc => Zicfiss16.parse_rs2 self opc
  | _ => .err .Not16BitInst

/-- `<u16 as Decode>::parse_imm`, src/decode/inst_16.rs:67-73. -/
def parse_imm (self : BitVec 16) (opkind : OpcodeKind) (_isa : Isa) : RustM (Option Int) :=
  match opkind with
  | .C opc => C.parse_imm self opc
  | .Zicfiss opc => Zicfiss16.parse_imm self opc
  | _ => .err .Not16BitInst

/-- `<u16 as Decode>::decode`, src/decode/inst_16.rs:8-29. -/
def decode (self : BitVec 16) (isa : Isa) : RustM Instruction :=
  if self.toNat = 0 then
    .err .IllegalInstruction
  else do
    let new_opc ← parse_opcode self isa
    let new_rd ← parse_rd self new_opc
    let new_rs1 ← parse_rs1 self new_opc
    let new_rs2 ← parse_rs2 self new_opc
    let new_imm ← parse_imm self new_opc isa
    let new_fmt := new_opc.getFormat
    .ok {
      opc := new_opc
      rd := new_rd
      rs1 := new_rs1
      rs2 := new_rs2
      imm := new_imm
      instFormat := new_fmt
      isCompressed := true }

end Raki.U16
