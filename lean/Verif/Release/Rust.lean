import Verif.Model.Rust
/-!
# Integer arithmetic of a release build

The counterpart of `Verif.Model.Rust` for a build without overflow checks: additions, subtractions and
powers wrap, and a shift amount is taken modulo the width.  `assert!`, checked conversions and
`unreachable!` panic in both builds.
-/

namespace Raki.Release

/-- `x >> k` on an unsigned integer of `n` bits; the amount is masked. -/
def shrU {n : Nat} (x : BitVec n) (k : Nat) : RustM (BitVec n) := .ok (x >>> (k % n))

/-- `x << k` on an unsigned integer of `n` bits; the amount is masked. -/
def shlU {n : Nat} (x : BitVec n) (k : Nat) : RustM (BitVec n) := .ok (x <<< (k % n))

/-- `b.pow(k)` on an unsigned integer of `n` bits; wraps. -/
def powU (n b k : Nat) : RustM (BitVec n) := .ok (BitVec.ofNat n (b ^ k))

/-- `x - y` on an unsigned integer of `n` bits; wraps. -/
def subU {n : Nat} (x y : BitVec n) : RustM (BitVec n) := .ok (x - y)

/-- `x + y` on an unsigned integer of `n` bits; wraps. -/
def addU {n : Nat} (x y : BitVec n) : RustM (BitVec n) := .ok (x + y)

/-- `x - y` on `u32` values given as numbers; wraps. -/
def subNat (x y : Nat) : RustM Nat := .ok ((x + 2 ^ 32 - y) % 2 ^ 32)

/-- The value `z` as the result of `i32` arithmetic: wraps. -/
def chkI32 (z : Int) : RustM Int := .ok (BitVec.ofInt 32 z).toInt

/-- `x >> k` (arithmetic) on `i32`; the amount is masked. -/
def sarI32 (x : Int) (k : Nat) : RustM Int := .ok ((BitVec.ofInt 32 x).sshiftRight (k % 32)).toInt

end Raki.Release
