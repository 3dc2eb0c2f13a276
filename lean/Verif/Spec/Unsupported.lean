import Verif.Model.Rust
import Verif.Model.Types
import Verif.Spec.Bits
/-!
# Instructions of extensions that the crate does not support

Written from the unprivileged manual (Zba, Zbb, Zbc, Zbs, Zbkb, Zbkx, Zicond, Zacas, Zawrs, Zicbom, Zcb, Zcmp,
Zcmt, Zcmop, F, D,
Q, V) and the privileged manual (H, Svinval).  Instructions that share a major opcode no supported instruction has are
listed under the name of that opcode.
-/

namespace Raki.Spec

/-- What README.md says about support: ticked or not, and the name. -/
def readmeSupport : List (Bool × String) :=
  [(true, "BaseI"), (true, "M"), (true, "A"), (false, "D"), (false, "Q"), (true, "C"), (false, "B"), (false, "P"),
   (false, "V"), (false, "H"), (true, "Zicsr"), (true, "Zifencei"), (true, "Zicntr"), (true, "Zicfiss"),
   (false, "Priv")]

/-- The name of the group an opcode belongs to. -/
def groupName : OpcodeKind → String
  | .BaseI _ => "BaseI" | .M _ => "M" | .A _ => "A" | .C _ => "C" | .Zifencei _ => "Zifencei"
  | .Zicboz _ => "Zicboz" | .Zicsr _ => "Zicsr" | .Zicfiss _ => "Zicfiss" | .Zicntr _ => "Zicntr"
  | .Priv _ => "Priv"

/-- An instruction the crate has no opcode for. -/
structure Foreign where
  name : String
  extension : String
  /-- The ISAs that have it. -/
  isas : List Isa
  /-- Its fixed bits: highest bit, lowest bit, value. -/
  fixed : List (Nat × Nat × Nat)
  /-- What the decoder takes it for, if it does not refuse it. -/
  taken : Option OpcodeKind

/-- A word of the instruction. -/
def Foreign.has (f : Foreign) (w : Nat) : Prop := ∀ x ∈ f.fixed, fld w x.1 x.2.1 = x.2.2

/-- The bits of the instruction, with zeros elsewhere. -/
def Foreign.least (f : Foreign) : Nat := f.fixed.foldl (fun w x => w + x.2.2 * 2 ^ x.2.1) 0

/-- 32-bit instructions. -/
def foreign32 : List Foreign :=
  [⟨"sh1add", "Zba", [.Rv32, .Rv64], [(6, 0, 0x33), (14, 12, 2), (31, 25, 0b0010000)], some (.BaseI .SLT)⟩,
   ⟨"sh2add", "Zba", [.Rv32, .Rv64], [(6, 0, 0x33), (14, 12, 4), (31, 25, 0b0010000)], some (.BaseI .XOR)⟩,
   ⟨"sh3add", "Zba", [.Rv32, .Rv64], [(6, 0, 0x33), (14, 12, 6), (31, 25, 0b0010000)], some (.BaseI .OR)⟩,
   ⟨"add.uw", "Zba", [.Rv64], [(6, 0, 0x3b), (14, 12, 0), (31, 25, 0b0000100)], none⟩,
   ⟨"sh1add.uw", "Zba", [.Rv64], [(6, 0, 0x3b), (14, 12, 2), (31, 25, 0b0010000)], none⟩,
   ⟨"sh2add.uw", "Zba", [.Rv64], [(6, 0, 0x3b), (14, 12, 4), (31, 25, 0b0010000)], none⟩,
   ⟨"sh3add.uw", "Zba", [.Rv64], [(6, 0, 0x3b), (14, 12, 6), (31, 25, 0b0010000)], none⟩,
   ⟨"slli.uw", "Zba", [.Rv64], [(6, 0, 0x1b), (14, 12, 1), (31, 26, 0b000010)], some (.BaseI .SLLIW)⟩,
   ⟨"andn", "Zbb", [.Rv32, .Rv64], [(6, 0, 0x33), (14, 12, 7), (31, 25, 0b0100000)], some (.BaseI .AND)⟩,
   ⟨"orn", "Zbb", [.Rv32, .Rv64], [(6, 0, 0x33), (14, 12, 6), (31, 25, 0b0100000)], some (.BaseI .OR)⟩,
   ⟨"xnor", "Zbb", [.Rv32, .Rv64], [(6, 0, 0x33), (14, 12, 4), (31, 25, 0b0100000)], some (.BaseI .XOR)⟩,
   ⟨"clz", "Zbb", [.Rv32, .Rv64], [(6, 0, 0x13), (14, 12, 1), (31, 20, 0b011000000000)], none⟩,
   ⟨"ctz", "Zbb", [.Rv32, .Rv64], [(6, 0, 0x13), (14, 12, 1), (31, 20, 0b011000000001)], none⟩,
   ⟨"cpop", "Zbb", [.Rv32, .Rv64], [(6, 0, 0x13), (14, 12, 1), (31, 20, 0b011000000010)], none⟩,
   ⟨"sext.b", "Zbb", [.Rv32, .Rv64], [(6, 0, 0x13), (14, 12, 1), (31, 20, 0b011000000100)], none⟩,
   ⟨"sext.h", "Zbb", [.Rv32, .Rv64], [(6, 0, 0x13), (14, 12, 1), (31, 20, 0b011000000101)], none⟩,
   ⟨"clzw", "Zbb", [.Rv64], [(6, 0, 0x1b), (14, 12, 1), (31, 20, 0b011000000000)], some (.BaseI .SLLIW)⟩,
   ⟨"ctzw", "Zbb", [.Rv64], [(6, 0, 0x1b), (14, 12, 1), (31, 20, 0b011000000001)], some (.BaseI .SLLIW)⟩,
   ⟨"cpopw", "Zbb", [.Rv64], [(6, 0, 0x1b), (14, 12, 1), (31, 20, 0b011000000010)], some (.BaseI .SLLIW)⟩,
   ⟨"min", "Zbb", [.Rv32, .Rv64], [(6, 0, 0x33), (14, 12, 4), (31, 25, 0b0000101)], some (.BaseI .XOR)⟩,
   ⟨"minu", "Zbb", [.Rv32, .Rv64], [(6, 0, 0x33), (14, 12, 5), (31, 25, 0b0000101)], none⟩,
   ⟨"max", "Zbb", [.Rv32, .Rv64], [(6, 0, 0x33), (14, 12, 6), (31, 25, 0b0000101)], some (.BaseI .OR)⟩,
   ⟨"maxu", "Zbb", [.Rv32, .Rv64], [(6, 0, 0x33), (14, 12, 7), (31, 25, 0b0000101)], some (.BaseI .AND)⟩,
   ⟨"zext.h", "Zbb", [.Rv32], [(6, 0, 0x33), (14, 12, 4), (31, 25, 0b0000100), (24, 20, 0)], some (.BaseI .XOR)⟩,
   ⟨"zext.h", "Zbb", [.Rv64], [(6, 0, 0x3b), (14, 12, 4), (31, 25, 0b0000100), (24, 20, 0)], none⟩,
   ⟨"rol", "Zbb", [.Rv32, .Rv64], [(6, 0, 0x33), (14, 12, 1), (31, 25, 0b0110000)], some (.BaseI .SLL)⟩,
   ⟨"ror", "Zbb", [.Rv32, .Rv64], [(6, 0, 0x33), (14, 12, 5), (31, 25, 0b0110000)], none⟩,
   ⟨"rori", "Zbb", [.Rv32, .Rv64], [(6, 0, 0x13), (14, 12, 5), (31, 26, 0b011000)], none⟩,
   ⟨"rolw", "Zbb", [.Rv64], [(6, 0, 0x3b), (14, 12, 1), (31, 25, 0b0110000)], none⟩,
   ⟨"rorw", "Zbb", [.Rv64], [(6, 0, 0x3b), (14, 12, 5), (31, 25, 0b0110000)], none⟩,
   ⟨"roriw", "Zbb", [.Rv64], [(6, 0, 0x1b), (14, 12, 5), (31, 25, 0b0110000)], none⟩,
   ⟨"orc.b", "Zbb", [.Rv32, .Rv64], [(6, 0, 0x13), (14, 12, 5), (31, 20, 0b001010000111)], none⟩,
   ⟨"rev8", "Zbb", [.Rv32], [(6, 0, 0x13), (14, 12, 5), (31, 20, 0b011010011000)], none⟩,
   ⟨"rev8", "Zbb", [.Rv64], [(6, 0, 0x13), (14, 12, 5), (31, 20, 0b011010111000)], none⟩,
   ⟨"bclr", "Zbs", [.Rv32, .Rv64], [(6, 0, 0x33), (14, 12, 1), (31, 25, 0b0100100)], some (.BaseI .SLL)⟩,
   ⟨"bext", "Zbs", [.Rv32, .Rv64], [(6, 0, 0x33), (14, 12, 5), (31, 25, 0b0100100)], none⟩,
   ⟨"binv", "Zbs", [.Rv32, .Rv64], [(6, 0, 0x33), (14, 12, 1), (31, 25, 0b0110100)], some (.BaseI .SLL)⟩,
   ⟨"bset", "Zbs", [.Rv32, .Rv64], [(6, 0, 0x33), (14, 12, 1), (31, 25, 0b0010100)], some (.BaseI .SLL)⟩,
   ⟨"bclri", "Zbs", [.Rv32, .Rv64], [(6, 0, 0x13), (14, 12, 1), (31, 26, 0b010010)], none⟩,
   ⟨"bexti", "Zbs", [.Rv32, .Rv64], [(6, 0, 0x13), (14, 12, 5), (31, 26, 0b010010)], none⟩,
   ⟨"binvi", "Zbs", [.Rv32, .Rv64], [(6, 0, 0x13), (14, 12, 1), (31, 26, 0b011010)], none⟩,
   ⟨"bseti", "Zbs", [.Rv32, .Rv64], [(6, 0, 0x13), (14, 12, 1), (31, 26, 0b001010)], none⟩,
   ⟨"clmul", "Zbc", [.Rv32, .Rv64], [(6, 0, 0x33), (14, 12, 1), (31, 25, 0b0000101)], some (.BaseI .SLL)⟩,
   ⟨"clmulr", "Zbc", [.Rv32, .Rv64], [(6, 0, 0x33), (14, 12, 2), (31, 25, 0b0000101)], some (.BaseI .SLT)⟩,
   ⟨"clmulh", "Zbc", [.Rv32, .Rv64], [(6, 0, 0x33), (14, 12, 3), (31, 25, 0b0000101)], some (.BaseI .SLTU)⟩,
   ⟨"pack", "Zbkb", [.Rv32, .Rv64], [(6, 0, 0x33), (14, 12, 4), (31, 25, 0b0000100)], some (.BaseI .XOR)⟩,
   ⟨"packh", "Zbkb", [.Rv32, .Rv64], [(6, 0, 0x33), (14, 12, 7), (31, 25, 0b0000100)], some (.BaseI .AND)⟩,
   ⟨"packw", "Zbkb", [.Rv64], [(6, 0, 0x3b), (14, 12, 4), (31, 25, 0b0000100)], none⟩,
   ⟨"xperm4", "Zbkx", [.Rv32, .Rv64], [(6, 0, 0x33), (14, 12, 2), (31, 25, 0b0010100)], some (.BaseI .SLT)⟩,
   ⟨"xperm8", "Zbkx", [.Rv32, .Rv64], [(6, 0, 0x33), (14, 12, 4), (31, 25, 0b0010100)], some (.BaseI .XOR)⟩,
   ⟨"czero.eqz", "Zicond", [.Rv32, .Rv64], [(6, 0, 0x33), (14, 12, 5), (31, 25, 0b0000111)], none⟩,
   ⟨"czero.nez", "Zicond", [.Rv32, .Rv64], [(6, 0, 0x33), (14, 12, 7), (31, 25, 0b0000111)], some (.BaseI .AND)⟩,
   ⟨"amocas.w", "Zacas", [.Rv32, .Rv64], [(6, 0, 0x2f), (14, 12, 2), (31, 27, 0b00101)], none⟩,
   ⟨"amocas.d", "Zacas", [.Rv32, .Rv64], [(6, 0, 0x2f), (14, 12, 3), (31, 27, 0b00101)], none⟩,
   ⟨"amocas.q", "Zacas", [.Rv64], [(6, 0, 0x2f), (14, 12, 4), (31, 27, 0b00101)], none⟩,
   ⟨"wrs.nto", "Zawrs", [.Rv32, .Rv64], [(6, 0, 0x73), (14, 12, 0), (31, 20, 0b000000001101), (11, 7, 0)], none⟩,
   ⟨"wrs.sto", "Zawrs", [.Rv32, .Rv64], [(6, 0, 0x73), (14, 12, 0), (31, 20, 0b000000011101), (11, 7, 0)], none⟩,
   ⟨"cbo.inval", "Zicbom", [.Rv32, .Rv64], [(6, 0, 0xf), (14, 12, 2), (31, 20, 0b000000000000), (11, 7, 0)], none⟩,
   ⟨"cbo.clean", "Zicbom", [.Rv32, .Rv64], [(6, 0, 0xf), (14, 12, 2), (31, 20, 0b000000000001), (11, 7, 0)], none⟩,
   ⟨"cbo.flush", "Zicbom", [.Rv32, .Rv64], [(6, 0, 0xf), (14, 12, 2), (31, 20, 0b000000000010), (11, 7, 0)], none⟩,
   ⟨"hfence.vvma", "H", [.Rv32, .Rv64], [(6, 0, 0x73), (14, 12, 0), (31, 25, 0b0010001), (11, 7, 0)], none⟩,
   ⟨"hfence.gvma", "H", [.Rv32, .Rv64], [(6, 0, 0x73), (14, 12, 0), (31, 25, 0b0110001), (11, 7, 0)], none⟩,
   ⟨"hlv.b", "H", [.Rv32, .Rv64], [(6, 0, 0x73), (14, 12, 4), (31, 20, 0b011000000000)], none⟩,
   ⟨"hlv.bu", "H", [.Rv32, .Rv64], [(6, 0, 0x73), (14, 12, 4), (31, 20, 0b011000000001)], none⟩,
   ⟨"hlv.h", "H", [.Rv32, .Rv64], [(6, 0, 0x73), (14, 12, 4), (31, 20, 0b011001000000)], none⟩,
   ⟨"hlv.hu", "H", [.Rv32, .Rv64], [(6, 0, 0x73), (14, 12, 4), (31, 20, 0b011001000001)], none⟩,
   ⟨"hlvx.hu", "H", [.Rv32, .Rv64], [(6, 0, 0x73), (14, 12, 4), (31, 20, 0b011001000011)], none⟩,
   ⟨"hlv.w", "H", [.Rv32, .Rv64], [(6, 0, 0x73), (14, 12, 4), (31, 20, 0b011010000000)], none⟩,
   ⟨"hlvx.wu", "H", [.Rv32, .Rv64], [(6, 0, 0x73), (14, 12, 4), (31, 20, 0b011010000011)], none⟩,
   ⟨"hlv.wu", "H", [.Rv64], [(6, 0, 0x73), (14, 12, 4), (31, 20, 0b011010000001)], none⟩,
   ⟨"hlv.d", "H", [.Rv64], [(6, 0, 0x73), (14, 12, 4), (31, 20, 0b011011000000)], none⟩,
   ⟨"hsv.b", "H", [.Rv32, .Rv64], [(6, 0, 0x73), (14, 12, 4), (31, 25, 0b0110001), (11, 7, 0)], none⟩,
   ⟨"hsv.h", "H", [.Rv32, .Rv64], [(6, 0, 0x73), (14, 12, 4), (31, 25, 0b0110011), (11, 7, 0)], none⟩,
   ⟨"hsv.w", "H", [.Rv32, .Rv64], [(6, 0, 0x73), (14, 12, 4), (31, 25, 0b0110101), (11, 7, 0)], none⟩,
   ⟨"hsv.d", "H", [.Rv64], [(6, 0, 0x73), (14, 12, 4), (31, 25, 0b0110111), (11, 7, 0)], none⟩,
   ⟨"sinval.vma", "Svinval", [.Rv32, .Rv64], [(6, 0, 0x73), (14, 12, 0), (31, 25, 0b0001011), (11, 7, 0)], none⟩,
   ⟨"hinval.vvma", "Svinval", [.Rv32, .Rv64], [(6, 0, 0x73), (14, 12, 0), (31, 25, 0b0010011), (11, 7, 0)], none⟩,
   ⟨"hinval.gvma", "Svinval", [.Rv32, .Rv64], [(6, 0, 0x73), (14, 12, 0), (31, 25, 0b0110011), (11, 7, 0)], none⟩,
   ⟨"sfence.w.inval", "Svinval", [.Rv32, .Rv64], [(6, 0, 0x73), (14, 12, 0), (31, 20, 0b000110000000), (11, 7, 0)], none⟩,
   ⟨"sfence.inval.ir", "Svinval", [.Rv32, .Rv64], [(6, 0, 0x73), (14, 12, 0), (31, 20, 0b000110000001), (11, 7, 0)], none⟩,
   ⟨"LOAD-FP", "F, D, Q, V", [.Rv32, .Rv64], [(6, 0, 0x7)], none⟩,
   ⟨"STORE-FP", "F, D, Q, V", [.Rv32, .Rv64], [(6, 0, 0x27)], none⟩,
   ⟨"MADD", "F, D, Q", [.Rv32, .Rv64], [(6, 0, 0x43)], none⟩,
   ⟨"MSUB", "F, D, Q", [.Rv32, .Rv64], [(6, 0, 0x47)], none⟩,
   ⟨"NMSUB", "F, D, Q", [.Rv32, .Rv64], [(6, 0, 0x4b)], none⟩,
   ⟨"NMADD", "F, D, Q", [.Rv32, .Rv64], [(6, 0, 0x4f)], none⟩,
   ⟨"OP-FP", "F, D, Q", [.Rv32, .Rv64], [(6, 0, 0x53)], none⟩,
   ⟨"OP-V", "V", [.Rv32, .Rv64], [(6, 0, 0x57)], none⟩,
   ⟨"OP-VE", "Zvk", [.Rv32, .Rv64], [(6, 0, 0x77)], none⟩]

/-- 16-bit instructions.  `c.mop.1` and `c.mop.5` are `c.sspush` and `c.sspopchk`. -/
def foreign16 : List Foreign :=
  [⟨"c.fld", "D", [.Rv32, .Rv64], [(1, 0, 0), (15, 13, 1)], none⟩,
   ⟨"c.fsd", "D", [.Rv32, .Rv64], [(1, 0, 0), (15, 13, 5)], none⟩,
   ⟨"c.fldsp", "D", [.Rv32, .Rv64], [(1, 0, 2), (15, 13, 1)], none⟩,
   ⟨"c.fsdsp", "D", [.Rv32, .Rv64], [(1, 0, 2), (15, 13, 5)], none⟩,
   ⟨"c.flw", "F", [.Rv32], [(1, 0, 0), (15, 13, 3)], none⟩,
   ⟨"c.fsw", "F", [.Rv32], [(1, 0, 0), (15, 13, 7)], none⟩,
   ⟨"c.flwsp", "F", [.Rv32], [(1, 0, 2), (15, 13, 3)], none⟩,
   ⟨"c.fswsp", "F", [.Rv32], [(1, 0, 2), (15, 13, 7)], none⟩,
   ⟨"c.lbu", "Zcb", [.Rv32, .Rv64], [(1, 0, 0), (15, 13, 4), (12, 10, 0b000)], none⟩,
   ⟨"c.lhu", "Zcb", [.Rv32, .Rv64], [(1, 0, 0), (15, 13, 4), (12, 10, 0b001), (6, 6, 0)], none⟩,
   ⟨"c.lh", "Zcb", [.Rv32, .Rv64], [(1, 0, 0), (15, 13, 4), (12, 10, 0b001), (6, 6, 1)], none⟩,
   ⟨"c.sb", "Zcb", [.Rv32, .Rv64], [(1, 0, 0), (15, 13, 4), (12, 10, 0b010)], none⟩,
   ⟨"c.sh", "Zcb", [.Rv32, .Rv64], [(1, 0, 0), (15, 13, 4), (12, 10, 0b011), (6, 6, 0)], none⟩,
   ⟨"c.mul", "Zcb", [.Rv32, .Rv64], [(1, 0, 1), (15, 13, 4), (12, 10, 7), (6, 5, 2)], none⟩,
   ⟨"c.zext.b", "Zcb", [.Rv32, .Rv64], [(1, 0, 1), (15, 13, 4), (12, 10, 7), (6, 5, 3), (4, 2, 0)], none⟩,
   ⟨"c.sext.b", "Zcb", [.Rv32, .Rv64], [(1, 0, 1), (15, 13, 4), (12, 10, 7), (6, 5, 3), (4, 2, 1)], none⟩,
   ⟨"c.zext.h", "Zcb", [.Rv32, .Rv64], [(1, 0, 1), (15, 13, 4), (12, 10, 7), (6, 5, 3), (4, 2, 2)], none⟩,
   ⟨"c.sext.h", "Zcb", [.Rv32, .Rv64], [(1, 0, 1), (15, 13, 4), (12, 10, 7), (6, 5, 3), (4, 2, 3)], none⟩,
   ⟨"c.zext.w", "Zcb", [.Rv64], [(1, 0, 1), (15, 13, 4), (12, 10, 7), (6, 5, 3), (4, 2, 4)], none⟩,
   ⟨"c.not", "Zcb", [.Rv32, .Rv64], [(1, 0, 1), (15, 13, 4), (12, 10, 7), (6, 5, 3), (4, 2, 5)], none⟩,
   ⟨"cm.push", "Zcmp", [.Rv32, .Rv64], [(1, 0, 2), (15, 13, 5), (12, 8, 0b11000)], none⟩,
   ⟨"cm.pop", "Zcmp", [.Rv32, .Rv64], [(1, 0, 2), (15, 13, 5), (12, 8, 0b11010)], none⟩,
   ⟨"cm.popretz", "Zcmp", [.Rv32, .Rv64], [(1, 0, 2), (15, 13, 5), (12, 8, 0b11100)], none⟩,
   ⟨"cm.popret", "Zcmp", [.Rv32, .Rv64], [(1, 0, 2), (15, 13, 5), (12, 8, 0b11110)], none⟩,
   ⟨"cm.mvsa01", "Zcmp", [.Rv32, .Rv64], [(1, 0, 2), (15, 13, 5), (12, 10, 3), (6, 5, 1)], none⟩,
   ⟨"cm.mva01s", "Zcmp", [.Rv32, .Rv64], [(1, 0, 2), (15, 13, 5), (12, 10, 3), (6, 5, 3)], none⟩,
   ⟨"cm.jt, cm.jalt", "Zcmt", [.Rv32, .Rv64], [(1, 0, 2), (15, 13, 5), (12, 10, 0)], none⟩,
   ⟨"c.mop.3", "Zcmop", [.Rv32, .Rv64], [(15, 0, 0x6181)], some (.C .LUI)⟩,
   ⟨"c.mop.7", "Zcmop", [.Rv32, .Rv64], [(15, 0, 0x6381)], some (.C .LUI)⟩,
   ⟨"c.mop.9", "Zcmop", [.Rv32, .Rv64], [(15, 0, 0x6481)], some (.C .LUI)⟩,
   ⟨"c.mop.11", "Zcmop", [.Rv32, .Rv64], [(15, 0, 0x6581)], some (.C .LUI)⟩,
   ⟨"c.mop.13", "Zcmop", [.Rv32, .Rv64], [(15, 0, 0x6681)], some (.C .LUI)⟩,
   ⟨"c.mop.15", "Zcmop", [.Rv32, .Rv64], [(15, 0, 0x6781)], some (.C .LUI)⟩]

end Raki.Spec
