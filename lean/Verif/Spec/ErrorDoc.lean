import Verif.Spec.Bits
import Verif.Model.Rust
/-!
# What the documentation says of the errors

The sentences in the documentation of `DecodingError` (/repo/src/decode.rs:47-68), and what it means that a bit field
of a word is the reason why the word is refused.
-/

namespace Raki.Spec

/-- The variants of `DecodingError` with their documentation (decode.rs:48-67), in order. -/
def errorDocs : List (DecodingError × String) :=
  [(.Not16BitInst, "32bit instructions are expected, but it is compressed instruction."),
   (.Not32BitInst, "Compressed instructions are expected, but it is 32bit length."),
   (.InvalidFunct3, "It has unexpected Funct3 value."),
   (.InvalidFunct5, "It has unexpected Funct5 value."),
   (.InvalidFunct6, "It has unexpected Funct6 value."),
   (.InvalidFunct7, "It has unexpected Funct7 value."),
   (.InvalidOpcode, "Has an opcode that cannot be decoded."),
   (.UnknownExtension, "This instruction is included in the unknown extension."),
   (.IllegalInstruction, "Illegal instruction (e.g. all zero value instruction)"),
   (.OnlyRv64Inst, "This instruction is only for Rv64 but appeared at Rv32.")]

/-- Two words agree outside the bits `hi` to `lo`. -/
def agreeOutside (w w' hi lo : Nat) : Prop :=
  w % 2 ^ lo = w' % 2 ^ lo ∧ w / 2 ^ (hi + 1) = w' / 2 ^ (hi + 1)

/-- The bits (highest and lowest) of the field an error names. -/
def namedField : DecodingError → Option (Nat × Nat)
  | .InvalidFunct3 => some (14, 12)
  | .InvalidFunct5 => some (24, 20)
  | .InvalidFunct6 => some (31, 26)
  | .InvalidFunct7 => some (31, 25)
  | _ => none

end Raki.Spec
