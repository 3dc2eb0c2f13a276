import Verif.Model.Derive
/-!
# The derived `Debug` in its indented form

`{:#?}` on the types of `/repo` that carry `#[derive(Debug)]`, as core's `DebugStruct`, `DebugTuple` and
`PadAdapter` lay it out: every field on lines of its own, indented by four columns, with a trailing comma.
Variants without fields are written as in `{:?}`.
-/

namespace Raki

/-- core's `PadAdapter`: four columns are put in front of every line; `nl` says whether the next character
begins a line. -/
def padAdapter : Bool → List Char → List Char
  | _, [] => []
  | nl, c :: cs => (if nl then [' ', ' ', ' ', ' '] else []) ++ c :: padAdapter (c == '\n') cs

/-- A field inside a `DebugTuple` or `DebugStruct` with `#`: written through a fresh `PadAdapter`, followed
by a comma. -/
def prettyField (s : String) : String := String.ofList (padAdapter true (s ++ ",\n").toList)

/-- `debug_tuple_field1_finish` with `#`. -/
def prettyTuple1 (name value : String) : String := name ++ "(\n" ++ prettyField value ++ ")"

/-- `debug_struct_fields_finish` with `#`, for at least one field. -/
def prettyStruct (name : String) (fields : List (String × String)) : String :=
  name ++ " {\n" ++ fields.foldr (fun f r => prettyField (f.1 ++ ": " ++ f.2) ++ r) "}"

/-- Derived `Debug` of `OpcodeKind` with `#`, src/instruction.rs:439-461. -/
def OpcodeKind.debugPretty : OpcodeKind → String
  | .BaseI opc => prettyTuple1 "BaseI" opc.debug
  | .M opc => prettyTuple1 "M" opc.debug
  | .A opc => prettyTuple1 "A" opc.debug
  | .C opc => prettyTuple1 "C" opc.debug
  | .Zifencei opc => prettyTuple1 "Zifencei" opc.debug
  | .Zicboz opc => prettyTuple1 "Zicboz" opc.debug
  | .Zicsr opc => prettyTuple1 "Zicsr" opc.debug
  | .Zicfiss opc => prettyTuple1 "Zicfiss" opc.debug
  | .Zicntr opc => prettyTuple1 "Zicntr" opc.debug
  | .Priv opc => prettyTuple1 "Priv" opc.debug

/-- `Debug` of an `Option` from core with `#`. -/
def prettyOption {α : Type} (f : α → String) : Option α → String
  | none => "None"
  | some a => prettyTuple1 "Some" (f a)

/-- Derived `Debug` of `Instruction` with `#`, src/instruction.rs:28-44. -/
def Instruction.debugPretty (i : Instruction) : String :=
  prettyStruct "Instruction" [("opc", i.opc.debugPretty), ("rd", prettyOption toString i.rd),
    ("rs1", prettyOption toString i.rs1), ("rs2", prettyOption toString i.rs2),
    ("imm", prettyOption toString i.imm), ("inst_format", i.instFormat.debug),
    ("is_compressed", debugBool i.isCompressed)]

end Raki
