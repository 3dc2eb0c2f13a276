/-!
# The fragment of Rust semantics the model needs

A Rust computation either yields a value, returns `Err(e)` (through `?` or explicitly), or panics.
Fixed-width arithmetic is modelled with the overflow checks of a debug build: an overflow is a panic.
A theorem saying that a computation never panics therefore also says that a release build (which
wraps silently) computes the same values.
-/

namespace Raki

/-- `enum DecodingError`, src/decode.rs:47-68. -/
inductive DecodingError where
  | Not16BitInst
  | Not32BitInst
  | InvalidFunct3
  | InvalidFunct5
  | InvalidFunct6
  | InvalidFunct7
  | InvalidOpcode
  | UnknownExtension
  | IllegalInstruction
  | OnlyRv64Inst
  deriving DecidableEq, Repr

/-- `enum Isa`, src/lib.rs:43-48. -/
inductive Isa where
  | Rv32
  | Rv64
  deriving DecidableEq, Repr

/-- Outcome of running Rust code: a value (`Ok(a)` for functions returning `Result`), an `Err(e)`,
or a panic.  Functions whose Rust type is not a `Result` never produce `err`. -/
inductive RustM (α : Type) where
  | ok (a : α)
  | err (e : DecodingError)
  | panic
  deriving DecidableEq, Repr

namespace RustM

/-- Sequencing; on `err` this is Rust's `?` operator, on `panic` unwinding. -/
protected def bind {α β : Type} (x : RustM α) (f : α → RustM β) : RustM β :=
  match x with
  | .ok a => f a
  | .err e => .err e
  | .panic => .panic

instance : Monad RustM where
  pure := .ok
  bind := RustM.bind

end RustM

/-- `assert!(c)` -/
def rAssert (c : Bool) : RustM Unit := if c then .ok () else .panic

/-- `u8::try_from(x).unwrap()`; the `u8` is represented by its value. -/
def tryU8 (x : Nat) : RustM Nat := if x < 2 ^ 8 then .ok x else .panic

/-- `u16::try_from(x).unwrap()` (also `.expect(..)`); the `u16` is represented by its value. -/
def tryU16 (x : Nat) : RustM Nat := if x < 2 ^ 16 then .ok x else .panic

/-- `u32::try_from(x).expect(..)`; the `u32` is represented by its value. -/
def tryU32 (x : Nat) : RustM Nat := if x < 2 ^ 32 then .ok x else .panic

/-- `x >> k` on an unsigned integer of `n` bits; panics when `k` is not below the width. -/
def shrU {n : Nat} (x : BitVec n) (k : Nat) : RustM (BitVec n) :=
  if k < n then .ok (x >>> k) else .panic

/-- `x << k` on an unsigned integer of `n` bits; panics when `k` is not below the width. -/
def shlU {n : Nat} (x : BitVec n) (k : Nat) : RustM (BitVec n) :=
  if k < n then .ok (x <<< k) else .panic

/-- `b.pow(k)` on an unsigned integer of `n` bits; panics on overflow. -/
def powU (n b k : Nat) : RustM (BitVec n) :=
  if b ^ k < 2 ^ n then .ok (BitVec.ofNat n (b ^ k)) else .panic

/-- `x - y` on an unsigned integer of `n` bits; panics on underflow. -/
def subU {n : Nat} (x y : BitVec n) : RustM (BitVec n) :=
  if y.toNat ≤ x.toNat then .ok (x - y) else .panic

/-- `x + y` on an unsigned integer of `n` bits; panics on overflow. -/
def addU {n : Nat} (x y : BitVec n) : RustM (BitVec n) :=
  if x.toNat + y.toNat < 2 ^ n then .ok (x + y) else .panic

/-- `x - y` on `u32` values given as numbers; panics on underflow. -/
def subNat (x y : Nat) : RustM Nat := if y ≤ x then .ok (x - y) else .panic

/-- The value `z` as the result of `i32` arithmetic: panics when it does not fit. -/
def chkI32 (z : Int) : RustM Int := if -2 ^ 31 ≤ z ∧ z < 2 ^ 31 then .ok z else .panic

/-- `x as i32` for a `u32` (two's complement reinterpretation). -/
def asI32 (x : BitVec 32) : Int := x.toInt

/-- `x & y` on `i32`. -/
def andI32 (x y : Int) : Int := (BitVec.ofInt 32 x &&& BitVec.ofInt 32 y).toInt

/-- `x >> k` (arithmetic) on `i32`; panics when `k ≥ 32`. -/
def sarI32 (x : Int) (k : Nat) : RustM Int :=
  if k < 32 then .ok ((BitVec.ofInt 32 x).sshiftRight k).toInt else .panic

end Raki
