/-!
# Bit fields as arithmetic

The vocabulary of the specification: fields of a number, the two's complement reading of a field, and
nothing else.  No function of the model is used.
-/

namespace Raki.Spec

/-- Bits `hi..lo` of `w`, as a number. -/
def fld (w hi lo : Nat) : Nat := w / 2 ^ lo % 2 ^ (hi + 1 - lo)

/-- Bit `k` of `w` (0 or 1). -/
def bit (w k : Nat) : Nat := w / 2 ^ k % 2

/-- The two's complement reading of the `n`-bit number `x`. -/
def sext (n : Nat) (x : Nat) : Int := if x < 2 ^ (n - 1) then (x : Int) else (x : Int) - 2 ^ n

end Raki.Spec
