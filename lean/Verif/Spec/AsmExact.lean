import Verif.Spec.DocText
/-!
# Which decoded instructions print as assembly language

Some opcodes print assembly language for some of their operands only.
-/

namespace Raki.Spec

/-- The decoded instruction is printed as assembly language: always for the opcodes of `printsAssembly`; for
`jal` when the offset is not negative (a negative one is shown as a large hexadecimal number); for stores,
which show base and source swapped, when the two registers are the same; for `c.addi4spn`, which shows hexadecimal digits without `0x`, when there is one decimal digit. -/
def textIsAssembly (i : Instruction) : Prop :=
  match i.opc with
  | .BaseI .JAL => ∃ z, i.imm = some z ∧ 0 ≤ z
  | .BaseI .SB | .BaseI .SH | .BaseI .SW | .BaseI .SD | .C .SW | .C .SD => i.rs1 = i.rs2
  | .C .ADDI4SPN => ∃ z, i.imm = some z ∧ z < 10
  | op => printsAssembly op = true

/-- The decoded instruction, of an opcode with a line in the documentation, is printed as shown there. -/
def textIsDocumented (i : Instruction) : Prop :=
  match i.opc with
  | .BaseI .JAL => ∃ z, i.imm = some z ∧ 0 ≤ z
  | .BaseI .SW | .C .SW => i.rs1 = i.rs2
  | .C .ADDI4SPN => ∃ z, i.imm = some z ∧ z < 10
  | op => op ∉ printedOtherwise

end Raki.Spec
