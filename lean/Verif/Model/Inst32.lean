import Verif.Model.BaseI
import Verif.Model.M
import Verif.Model.A
import Verif.Model.Zifencei
import Verif.Model.Zicboz
import Verif.Model.Zicsr
import Verif.Model.Zicfiss
import Verif.Model.Zicntr
import Verif.Model.Priv
/-!
# The 32-bit decoder

Models `impl Decode for u32` in `/repo/src/decode/inst_32.rs`.
-/

namespace Raki.U32

/-- `<u32 as Decode>::parse_opcode`, src/decode/inst_32.rs:30-60. -/
def parse_opcode (self : BitVec 32) (isa : Isa) : RustM OpcodeKind :=
  let extension := parse_extension self
  match extension with
  | .ok .BaseI => do .ok (.BaseI (← BaseI.parse_opcode self isa))
  | .ok .M => do .ok (.M (← M.parse_opcode self isa))
  | .ok .A => do .ok (.A (← A.parse_opcode self isa))
  | .ok .Zifencei => do .ok (.Zifencei (← Zifencei.parse_opcode self))
  | .ok .Zicsr => do .ok (.Zicsr (← Zicsr.parse_opcode self))
  | .ok .Zicfiss => do .ok (.Zicfiss (← Zicfiss.parse_opcode self))
  | .ok .Zicntr => do .ok (.Zicntr (← Zicntr.parse_opcode self))
  | .ok .Zicboz => do .ok (.Zicboz (← Zicboz.parse_opcode self))
  | .ok .Priv => do .ok (.Priv (← Priv.parse_opcode self))
  | .ok .C => .err .Not32BitInst
  | .err decoding_err => .err decoding_err
  | .panic => .panic

/-- `<u32 as Decode>::parse_rd`, src/decode/inst_32.rs:62-75. -/
def parse_rd (self : BitVec 32) (opkind : OpcodeKind) : RustM (Option Nat) :=
  match opkind with
  | .BaseI opc => BaseI.parse_rd self opc
  | .M opc => M.parse_rd self opc
  | .A opc => A.parse_rd self opc
  | .Zifencei opc => Zifencei.parse_rd self opc
  | .Zicsr opc => Zicsr.parse_rd self opc
  | .Zicfiss opc => Zicfiss.parse_rd self opc
  | .Zicntr opc => Zicntr.parse_rd self opc
  | .Zicboz opc => Zicboz.parse_rd self opc
  | .Priv opc => Priv.parse_rd self opc
  | .C _ => .err .Not32BitInst

/-- `<u32 as Decode>::parse_rs1`, src/decode/inst_32.rs:77-90. -/
def parse_rs1 (self : BitVec 32) (opkind : OpcodeKind) : RustM (Option Nat) :=
  match opkind with
  | .BaseI opc => BaseI.parse_rs1 self opc
  | .M opc => M.parse_rs1 self opc
  | .A opc => A.parse_rs1 self opc
  | .Zifencei opc => Zifencei.parse_rs1 self opc
  | .Zicsr opc => Zicsr.parse_rs1 self opc
  | .Zicfiss opc => Zicfiss.parse_rs1 self opc
  | .Zicntr opc => Zicntr.parse_rs1 self opc
  | .Zicboz opc => Zicboz.parse_rs1 self opc
  | .Priv opc => Priv.parse_rs1 self opc
  | .C _ => .err .Not32BitInst

/-- `<u32 as Decode>::parse_rs2`, src/decode/inst_32.rs:92-105. -/
def parse_rs2 (self : BitVec 32) (opkind : OpcodeKind) : RustM (Option Nat) :=
  match opkind with
  | .BaseI opc => BaseI.parse_rs2 self opc
  | .M opc => M.parse_rs2 self opc
  | .A opc => A.parse_rs2 self opc
  | .Zifencei opc => Zifencei.parse_rs2 self opc
  | .Zicsr opc => Zicsr.parse_rs2 self opc
  | .Zicfiss opc => Zicfiss.parse_rs2 self opc
  | .Zicntr opc => Zicntr.parse_rs2 self opc
  | .Zicboz opc => Zicboz.parse_rs2 self opc
  | .Priv opc => Priv.parse_rs2 self opc
  | .C _ => .err .Not32BitInst

/-- `<u32 as Decode>::parse_imm`, src/decode/inst_32.rs:107-120. -/
def parse_imm (self : BitVec 32) (opkind : OpcodeKind) (isa : Isa) : RustM (Option Int) :=
  match opkind with
  | .BaseI opc => BaseI.parse_imm self opc isa
  | .M opc => M.parse_imm self opc
  | .A opc => A.parse_imm self opc
  | .Zifencei opc => Zifencei.parse_imm self opc
  | .Zicsr opc => Zicsr.parse_imm self opc
  | .Zicfiss opc => Zicfiss.parse_imm self opc
  | .Zicntr opc => Zicntr.parse_imm self opc
  | .Zicboz opc => Zicboz.parse_imm self opc
  | .Priv opc => Priv.parse_imm self opc
  | .C _ => .err .Not32BitInst

/-- `<u32 as Decode>::decode`, src/decode/inst_32.rs:11-28. -/
def decode (self : BitVec 32) (isa : Isa) : RustM Instruction := do
  let new_opc ← parse_opcode self isa
  let new_rd ← parse_rd self new_opc
  let new_rs1 ← parse_rs1 self new_opc
  let new_rs2 ← parse_rs2 self new_opc
  let new_imm ← parse_imm self new_opc isa
  let new_fmt := new_opc.getFormat
  .ok {
    opc := new_opc
    rd := new_rd
    rs1 := new_rs1
    rs2 := new_rs2
    imm := new_imm
    instFormat := new_fmt
    isCompressed := false }

end Raki.U32
