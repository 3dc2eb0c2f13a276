import Verif.Spec.DebugText
import Verif.Model.Flags
/-!
# Debug text of instructions under formatter flags

What `{:5?}`, `{:+?}`, `{:#010x?}`, … show for an instruction value.  From the model only the data types and
the record of flags are used.
-/

namespace Raki.Spec

/-- `t` is `s` in a field of the requested width: filled up on the side the alignment asks for, in the
middle as evenly as possible with the odd character behind. -/
def placed (f : Flags) (default : Alignment) (s t : List Char) : Prop :=
  ∃ a b, t = List.replicate a f.fill ++ s ++ List.replicate b f.fill ∧ a + b = f.width.getD 0 - s.length ∧
    match f.align.getD default with
    | .Left => a = 0
    | .Right => b = 0
    | .Center => a = b ∨ a + 1 = b

/-- The digits of a number. -/
def isDigits (f : Flags) (ds : List Char) (n : Nat) : Prop :=
  match f.hex with
  | none => isNumeral 10 ds n
  | some .Lower => isNumeral 16 ds n
  | some .Upper => ∃ es, isNumeral 16 es n ∧ ds = es.map capital

/-- What stands in front of the digits. -/
def numberHead (f : Flags) (negative : Bool) : List Char :=
  (if negative then ['-'] else if f.plus then ['+'] else []) ++
    (if f.hex.isSome && f.alternate then ['0', 'x'] else [])

/-- The text of a number: with the flag `0` zeros fill up between head and digits, whatever the alignment;
otherwise the number is at the right of its field unless an alignment is given. -/
def isNumberWith (f : Flags) (negative : Bool) (n : Nat) (t : List Char) : Prop :=
  ∃ ds, isDigits f ds n ∧
    if f.zero then
      t = numberHead f negative ++
        List.replicate (f.width.getD 0 - (numberHead f negative ++ ds).length) '0' ++ ds
    else placed f .Right (numberHead f negative ++ ds) t

/-- The text of a register number. -/
def isUsizeWith (f : Flags) (n : Nat) (t : List Char) : Prop := isNumberWith f false n t

/-- The text of an immediate: with its sign in decimal, as 32-bit two's complement in hexadecimal. -/
def isI32With (f : Flags) (z : Int) (t : List Char) : Prop :=
  if f.hex.isSome then isNumberWith f false (z % 2 ^ 32).toNat t
  else isNumberWith f (decide (z < 0)) z.natAbs t

/-- The text of a truth value: cut off at the precision, at the left of its field unless an alignment is
given. -/
def isBoolWith (f : Flags) (b : Bool) (t : List Char) : Prop :=
  placed f .Left ((if b then "true" else "false").toList.take (f.precision.getD 5)) t

/-- A text in a block indented by `n`. -/
def hang (n : Nat) (cs : List Char) : List Char :=
  cs.flatMap fun c => if c = '\n' then '\n' :: List.replicate n ' ' else [c]

/-- The text of an optional number. -/
def isOptionWith {α : Type} (f : Flags) (P : α → List Char → Prop) (s : List Char) : Option α → Prop
  | none => s = "None".toList
  | some a => ∃ t, P a t ∧ s =
      if f.alternate then "Some(\n        ".toList ++ hang 8 t ++ ",\n    )".toList
      else "Some(".toList ++ t ++ ")".toList

/-- The debug text of an instruction value under flags. -/
def isDebugTextWith (f : Flags) (i : Instruction) (s : String) : Prop :=
  ∃ rd rs1 rs2 imm c, isOptionWith f (isUsizeWith f) rd i.rd ∧ isOptionWith f (isUsizeWith f) rs1 i.rs1 ∧
    isOptionWith f (isUsizeWith f) rs2 i.rs2 ∧ isOptionWith f (isI32With f) imm i.imm ∧
    isBoolWith f i.isCompressed c ∧
    s.toList =
      if f.alternate then
        "Instruction {\n    opc: ".toList ++ (extensionName i.opc).toList ++ "(\n        ".toList ++
          (opcodeName i.opc).toList ++ ",\n    ),\n    rd: ".toList ++ rd ++ ",\n    rs1: ".toList ++ rs1 ++
          ",\n    rs2: ".toList ++ rs2 ++ ",\n    imm: ".toList ++ imm ++ ",\n    inst_format: ".toList ++
          (formatName i.instFormat).toList ++ ",\n    is_compressed: ".toList ++ hang 4 c ++ ",\n}".toList
      else
        "Instruction { opc: ".toList ++ (extensionName i.opc).toList ++ "(".toList ++
          (opcodeName i.opc).toList ++ "), rd: ".toList ++ rd ++ ", rs1: ".toList ++ rs1 ++
          ", rs2: ".toList ++ rs2 ++ ", imm: ".toList ++ imm ++ ", inst_format: ".toList ++
          (formatName i.instFormat).toList ++ ", is_compressed: ".toList ++ c ++ " }".toList

/-- A fill character that cannot be mistaken for a part of the text it surrounds. -/
def plainFill (c : Char) : Prop := ¬ c.isAlphanum ∧ c ∉ ['_', '(', ')', '+', '-']

end Raki.Spec
