import Verif.Model.OldOpcode
import Verif.Spec.DebugText
/-!
# Which entry of the older opcode list an opcode comes from

The two enumerations are matched by the manual's mnemonic: in capitals, with underscores for dots.
-/

namespace Raki.Spec

/-- The older entry `o` and the opcode `op` stand for the same instruction of the manual. -/
def sameInstruction (o : OldOpcode) (op : OpcodeKind) : Prop :=
  o.ident = String.ofList ((manualName op).toList.map capital)

/-- Opcodes of the extensions that the older list has no entries for. -/
def addedSince : OpcodeKind → Prop
  | .Zicntr _ | .Zicboz _ | .Zicfiss _ => True
  | _ => False

/-- The extension an opcode belongs to, by its constructor. -/
def extensionOf : OpcodeKind → Extensions
  | .BaseI _ => .BaseI | .M _ => .M | .A _ => .A | .C _ => .C | .Zifencei _ => .Zifencei
  | .Zicboz _ => .Zicboz | .Zicsr _ => .Zicsr | .Zicfiss _ => .Zicfiss | .Zicntr _ => .Zicntr
  | .Priv _ => .Priv

end Raki.Spec
