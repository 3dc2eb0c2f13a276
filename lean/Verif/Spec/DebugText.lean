import Verif.Spec.Text
/-!
# Debug text of instructions

What `{:?}` shows for an instruction value: field by field, with opcodes named by their mnemonic in
capitals and numbers described by their digits.
-/

namespace Raki.Spec

/-- Name of the extension an opcode belongs to. -/
def extensionName : OpcodeKind → String
  | .BaseI _ => "BaseI" | .M _ => "M" | .A _ => "A" | .C _ => "C" | .Zifencei _ => "Zifencei"
  | .Zicboz _ => "Zicboz" | .Zicsr _ => "Zicsr" | .Zicfiss _ => "Zicfiss" | .Zicntr _ => "Zicntr"
  | .Priv _ => "Priv"

/-- Capital letter of a lower-case letter; a dot becomes an underscore. -/
def capital (c : Char) : Char :=
  if c = '.' then '_' else if 97 ≤ c.toNat ∧ c.toNat ≤ 122 then Char.ofNat (c.toNat - 32) else c

/-- Name of an opcode: the manual's mnemonic in capitals with `_` for the dot.  Opcodes of the C
extension drop the leading `c.`, and the high halves of the counters are set off by an underscore. -/
def opcodeName : OpcodeKind → String
  | .C o => String.ofList (((manualName (.C o)).toList.drop 2).map capital)
  | .Zicntr .RDCYCLE_H => "RDCYCLE_H"
  | .Zicntr .RDTIME_H => "RDTIME_H"
  | .Zicntr .RDINSTRET_H => "RDINSTRET_H"
  | op => String.ofList ((manualName op).toList.map capital)

/-- Names of the instruction formats. -/
def formatName : InstFormat → String
  | .RFormat => "RFormat" | .RShamtFormat => "RShamtFormat" | .IFormat => "IFormat"
  | .SFormat => "SFormat" | .BFormat => "BFormat" | .UFormat => "UFormat" | .JFormat => "JFormat"
  | .CrFormat => "CrFormat" | .CiFormat => "CiFormat" | .CssFormat => "CssFormat"
  | .CiwFormat => "CiwFormat" | .ClFormat => "ClFormat" | .CsFormat => "CsFormat"
  | .CaFormat => "CaFormat" | .CbFormat => "CbFormat" | .CjFormat => "CjFormat"
  | .CsrFormat => "CsrFormat" | .CsrUiFormat => "CsrUiFormat" | .MFormat => "MFormat"
  | .AFormat => "AFormat" | .ALrFormat => "ALrFormat" | .NoOperand => "NoOperand"
  | .OnlyRd => "OnlyRd" | .OnlyRs1 => "OnlyRs1" | .OnlyRs2 => "OnlyRs2"

/-- Text of an optional number. -/
def isOption (s : String) : Option Int → Prop
  | none => s = "None"
  | some z => ∃ d, isDecimal d z ∧ s = "Some(" ++ d ++ ")"

/-- The debug text of an instruction value. -/
def isDebugText (i : Instruction) (s : String) : Prop :=
  ∃ rd rs1 rs2 imm, isOption rd (i.rd.map Int.ofNat) ∧ isOption rs1 (i.rs1.map Int.ofNat) ∧
    isOption rs2 (i.rs2.map Int.ofNat) ∧ isOption imm i.imm ∧
    s = "Instruction { opc: " ++ extensionName i.opc ++ "(" ++ opcodeName i.opc ++ "), rd: " ++ rd ++
      ", rs1: " ++ rs1 ++ ", rs2: " ++ rs2 ++ ", imm: " ++ imm ++ ", inst_format: " ++
      formatName i.instFormat ++ ", is_compressed: " ++ (if i.isCompressed then "true" else "false") ++ " }"

/-! ## The indented form -/

/-- The lines that show an optional number in a field. -/
def isOptionLines (key : String) (ls : List String) : Option Int → Prop
  | none => ls = ["    " ++ key ++ ": None,"]
  | some z => ∃ d, isDecimal d z ∧ ls = ["    " ++ key ++ ": Some(", "        " ++ d ++ ",", "    ),"]

/-- Lines as text; the last line is not terminated. -/
def lines : List String → String
  | [] => ""
  | [l] => l
  | l :: ls => l ++ "\n" ++ lines ls

/-- The indented debug text of an instruction value. -/
def isPrettyText (i : Instruction) (s : String) : Prop :=
  ∃ rd rs1 rs2 imm, isOptionLines "rd" rd (i.rd.map Int.ofNat) ∧
    isOptionLines "rs1" rs1 (i.rs1.map Int.ofNat) ∧ isOptionLines "rs2" rs2 (i.rs2.map Int.ofNat) ∧
    isOptionLines "imm" imm i.imm ∧
    s = lines (["Instruction {", "    opc: " ++ extensionName i.opc ++ "(",
        "        " ++ opcodeName i.opc ++ ",", "    ),"] ++ rd ++ rs1 ++ rs2 ++ imm ++
      ["    inst_format: " ++ formatName i.instFormat ++ ",",
        "    is_compressed: " ++ (if i.isCompressed then "true" else "false") ++ ",", "}"])

end Raki.Spec
