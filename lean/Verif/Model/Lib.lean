import Verif.Model.Inst32
import Verif.Model.Inst16
/-!
# Conversion from `usize`

Models `impl TryFrom<usize> for Instruction` in `/repo/src/lib.rs`.
-/

namespace Raki

/-- `<Instruction as TryFrom<usize>>::try_from`, src/lib.rs:75-88.  A `usize` of whatever target
width is the natural number it denotes. -/
def try_from (inst : Nat) : RustM Instruction :=
  if inst &&& 0b11 = 0b11 then do
    let w ← tryU32 inst
    U32.decode (BitVec.ofNat 32 w) .Rv64
  else do
    let h ← tryU16 inst
    U16.decode (BitVec.ofNat 16 h) .Rv64

end Raki
