import Verif.Model.DebugPretty
import Verif.Model.Display
/-!
# The derived `Debug` under formatter flags

`{:5?}`, `{:+?}`, `{:#x?}`, … on the types of `/repo` that carry `#[derive(Debug)]`.  The derived code writes
names as they are and hands the formatter, flags included, to its fields; so the flags reach the numbers and
the `bool` in an `Instruction`.  The functions of core that use them are written out here:
`Formatter::padding`, `pad_integral` and `pad`, and `Debug` of `usize`, `i32` and `bool`.
-/

namespace Raki

/-- core's `fmt::Alignment`. -/
inductive Alignment | Left | Right | Center
  deriving DecidableEq

/-- The letters of `{:x?}` and `{:X?}`. -/
inductive HexCase | Lower | Upper
  deriving DecidableEq

/-- What a format specification sets in the formatter; the defaults are those of `{:?}`. -/
structure Flags where
  /-- the character before `<`, `^` or `>` -/
  fill : Char := ' '
  /-- `<`, `^` or `>` -/
  align : Option Alignment := none
  /-- `+` -/
  plus : Bool := false
  /-- `#` -/
  alternate : Bool := false
  /-- `0` -/
  zero : Bool := false
  /-- the minimal number of characters -/
  width : Option Nat := none
  /-- the number behind the dot -/
  precision : Option Nat := none
  /-- `x?` or `X?` -/
  hex : Option HexCase := none

/-- A text of `n` equal characters. -/
def copies (n : Nat) (c : Char) : String := String.ofList (List.replicate n c)

/-- core's `Formatter::padding`, around a text. -/
def Flags.padding (f : Flags) (n : Nat) (default : Alignment) (s : String) : String :=
  let left := match f.align.getD default with
    | .Left => 0
    | .Right => n
    | .Center => n / 2
  copies left f.fill ++ s ++ copies (n - left) f.fill

/-- core's `Formatter::pad_integral`. -/
def Flags.padIntegral (f : Flags) (nonneg : Bool) (pre digits : String) : String :=
  let head := (if !nonneg then "-" else if f.plus then "+" else "") ++ (if f.alternate then pre else "")
  let len := head.length + digits.length
  match f.width with
  | none => head ++ digits
  | some w =>
    if w ≤ len then head ++ digits
    else if f.zero then head ++ copies (w - len) '0' ++ digits
    else f.padding (w - len) .Right (head ++ digits)

/-- core's `Formatter::pad`. -/
def Flags.pad (f : Flags) (s : String) : String :=
  let s := match f.precision with
    | none => s
    | some p => String.ofList (s.toList.take p)
  match f.width with
  | none => s
  | some w => if w ≤ s.length then s else f.padding (w - s.length) .Left s

/-- Hexadecimal digits in capitals. -/
def upperHex (n : Nat) : String := String.ofList ((Nat.toDigits 16 n).map Char.toUpper)

/-- core's `Debug` of `usize`. -/
def debugUsizeWith (f : Flags) (n : Nat) : String :=
  match f.hex with
  | none => f.padIntegral true "" (toString n)
  | some .Lower => f.padIntegral true "0x" (hexNat n)
  | some .Upper => f.padIntegral true "0x" (upperHex n)

/-- core's `Debug` of `i32`; in hexadecimal it shows the two's complement. -/
def debugI32With (f : Flags) (z : Int) : String :=
  match f.hex with
  | none => f.padIntegral (decide (0 ≤ z)) "" (toString z.natAbs)
  | some .Lower => f.padIntegral true "0x" (hexNat (BitVec.ofInt 32 z).toNat)
  | some .Upper => f.padIntegral true "0x" (upperHex (BitVec.ofInt 32 z).toNat)

/-- core's `Debug` of `bool`. -/
def debugBoolWith (f : Flags) (b : Bool) : String := f.pad (debugBool b)

/-- Derived `Debug` of `OpcodeKind` under flags, src/instruction.rs:439-461. -/
def OpcodeKind.debugWith (f : Flags) (op : OpcodeKind) : String :=
  if f.alternate then op.debugPretty else op.debug

/-- `Debug` of an `Option` from core under flags. -/
def debugOptionWith {α : Type} (f : Flags) (g : α → String) (o : Option α) : String :=
  if f.alternate then prettyOption g o else debugOption g o

/-- Derived `Debug` of `Instruction` under flags, src/instruction.rs:28-44. -/
def Instruction.debugWith (f : Flags) (i : Instruction) : String :=
  let opc := i.opc.debugWith f
  let rd := debugOptionWith f (debugUsizeWith f) i.rd
  let rs1 := debugOptionWith f (debugUsizeWith f) i.rs1
  let rs2 := debugOptionWith f (debugUsizeWith f) i.rs2
  let imm := debugOptionWith f (debugI32With f) i.imm
  let instFormat := i.instFormat.debug
  let isCompressed := debugBoolWith f i.isCompressed
  if f.alternate then
    prettyStruct "Instruction" [("opc", opc), ("rd", rd), ("rs1", rs1), ("rs2", rs2), ("imm", imm),
      ("inst_format", instFormat), ("is_compressed", isCompressed)]
  else
    "Instruction { opc: " ++ opc ++ ", rd: " ++ rd ++ ", rs1: " ++ rs1 ++ ", rs2: " ++ rs2 ++ ", imm: " ++
      imm ++ ", inst_format: " ++ instFormat ++ ", is_compressed: " ++ isCompressed ++ " }"

end Raki
