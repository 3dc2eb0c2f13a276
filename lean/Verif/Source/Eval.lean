import Verif.Source.Syntax
import Verif.Release.Rust
import Verif.Model.Sink
/-!
# Evaluation of the Rust subset

A direct evaluator of the syntax in `Verif.Source.Syntax`.  It knows nothing of the crate.  Integer
operations are those of `Verif.Model.Rust` (overflow checks) or `Verif.Release.Rust` (no overflow checks),
as selected by a `Mode`; `as usize` depends on the width of pointers on the target.  Both are part of a
`Build`.

Where Rust's type checker decides what an operation means, the evaluator looks at the values: a method
belongs to the type of its receiver, and a literal without suffix takes the type of the other operand.
Code the type checker would reject is `stuck`.
-/

namespace Raki.Source

/-- With or without overflow checks. -/
inductive Mode where
  | checked | wrapping

/-- Widths of pointers, and of `usize`, that Rust has. -/
inductive PtrWidth where
  | w16 | w32 | w64

/-- The width in bits. -/
def PtrWidth.bits : PtrWidth → Nat
  | .w16 => 16
  | .w32 => 32
  | .w64 => 64

/-- What the meaning of a program depends on besides its text. -/
structure Build where
  /-- With or without overflow checks. -/
  mode : Mode
  /-- The width of `usize`. -/
  ptr : PtrWidth

/-- Values.  A `u8` or a `usize` is the number it denotes, an `i32` the integer it denotes. -/
inductive Val where
  | u8 (n : Nat)
  | u16 (x : BitVec 16)
  | u32 (x : BitVec 32)
  | usize (n : Nat)
  | i32 (z : Int)
  /-- a literal whose type is not known yet -/
  | lit (n : Nat)
  | bool (b : Bool)
  | str (s : String)
  | unit
  | variant (ty c : Id)
  | variantOf (ty c : Id) (v : Val)
  | struct (ty : Id) (fs : List (Id × Val))
  | array (vs : List Val)
  /-- what a `fmt` function returns: the pieces of text it writes, in order -/
  | wrote (cs : List String)

/-- Outcome of evaluating an expression: a value, a `return` from the enclosing function, a panic, or code
that Rust rejects. -/
inductive Out (α : Type) where
  | val (a : α)
  | ret (v : Val)
  | panic
  | stuck

namespace Out

/-- Sequencing. -/
protected def bind {α β : Type} (x : Out α) (f : α → Out β) : Out β :=
  match x with
  | .val a => f a
  | .ret v => .ret v
  | .panic => .panic
  | .stuck => .stuck

instance : Monad Out where
  pure := .val
  bind := Out.bind

/-- The outcome of an integer operation, which succeeds or panics. -/
def ofRust {α : Type} (k : α → Val) : RustM α → Out Val
  | .ok a => .val (k a)
  | .err _ => .stuck
  | .panic => .panic

end Out

/-- Variables in scope, latest first.  A closure is bound to the outcome of its body: the crate's closures
take no arguments and change nothing. -/
abbrev Env := List (Id × Out Val)

/-- Look up a variable. -/
def Env.get : Env → Id → Out Val
  | [], _ => .stuck
  | (y, v) :: env, x => if x = y then v else Env.get env x

/-- Assign to a variable. -/
def Env.set : Env → Id → Val → Env
  | [], _, _ => []
  | (y, w) :: env, x, v => if x = y then (y, .val v) :: env else (y, w) :: Env.set env x v

/-- Look up a field. -/
def getField : List (Id × Val) → Id → Out Val
  | [], _ => .stuck
  | (y, v) :: fs, x => if x = y then .val v else getField fs x

/-- Give a literal the type `t`; other values have their type already. -/
def coerce : Ty → Val → Val
  | .u8, .lit n => .u8 n
  | .u16, .lit n => .u16 (BitVec.ofNat 16 n)
  | .u32, .lit n => .u32 (BitVec.ofNat 32 n)
  | .usize, .lit n => .usize n
  | .i32, .lit n => .i32 n
  | .option t, .variantOf .Option .Some v => .variantOf .Option .Some (coerce t v)
  | .result t, .variantOf .Result .Ok v => .variantOf .Result .Ok (coerce t v)
  | .array t, .array vs => .array (vs.map (coerce t))
  | _, v => v

/-- The type that owns the methods of a value. -/
def typeOf : Val → Option Id
  | .u8 _ => some .u8
  | .u16 _ => some .u16
  | .u32 _ => some .u32
  | .usize _ => some .usize
  | .i32 _ => some .i32
  | .variant ty _ => some ty
  | .variantOf ty _ _ => some ty
  | .struct ty _ => some ty
  | _ => none

/-- The number an unsigned value denotes. -/
def unsigned : Val → Option Nat
  | .u8 n => some n
  | .u16 x => some x.toNat
  | .u32 x => some x.toNat
  | .usize n => some n
  | .lit n => some n
  | _ => none

/-- The bit pattern of an integer literal, where the other operand is known. -/
def litLike : Val → Val → Val
  | .u8 _, .lit n => .u8 n
  | .u16 _, .lit n => .u16 (BitVec.ofNat 16 n)
  | .u32 _, .lit n => .u32 (BitVec.ofNat 32 n)
  | .usize _, .lit n => .usize n
  | .i32 _, .lit n => .i32 n
  | _, v => v

/-- `a + b`, `a - b`, `a & b`, `a | b`, `a == b` and `a >= b` on operands of the same type. -/
def arith (m : Mode) : BinOp → Val → Val → Out Val
  | .add, .u16 x, .u16 y => .ofRust .u16 (match m with | .checked => addU x y | .wrapping => Release.addU x y)
  | .add, .u32 x, .u32 y => .ofRust .u32 (match m with | .checked => addU x y | .wrapping => Release.addU x y)
  | .sub, .u16 x, .u16 y => .ofRust .u16 (match m with | .checked => subU x y | .wrapping => Release.subU x y)
  | .sub, .u32 x, .u32 y => .ofRust .u32 (match m with | .checked => subU x y | .wrapping => Release.subU x y)
  | .sub, .i32 x, .i32 y => .ofRust .i32
      (match m with | .checked => chkI32 (x - y) | .wrapping => Release.chkI32 (x - y))
  | .and, .u16 x, .u16 y => .val (.u16 (x &&& y))
  | .and, .u32 x, .u32 y => .val (.u32 (x &&& y))
  | .and, .usize x, .usize y => .val (.usize (x &&& y))
  | .and, .i32 x, .i32 y => .val (.i32 (andI32 x y))
  | .or, .u32 x, .u32 y => .val (.u32 (x ||| y))
  | .eq, .u16 x, .u16 y => .val (.bool (decide (x.toNat = y.toNat)))
  | .eq, .u32 x, .u32 y => .val (.bool (decide (x.toNat = y.toNat)))
  | .eq, .usize x, .usize y => .val (.bool (decide (x = y)))
  | .eq, .i32 x, .i32 y => .val (.bool (decide (x = y)))
  | .ge, .u32 x, .u32 y => .val (.bool (decide (x.toNat ≥ y.toNat)))
  | _, _, _ => .stuck

/-- Shifts; the amount may have any unsigned type. -/
def shift (m : Mode) : BinOp → Val → Nat → Out Val
  | .shl, .u16 x, k => .ofRust .u16 (match m with | .checked => shlU x k | .wrapping => Release.shlU x k)
  | .shl, .u32 x, k => .ofRust .u32 (match m with | .checked => shlU x k | .wrapping => Release.shlU x k)
  | .shr, .u16 x, k => .ofRust .u16 (match m with | .checked => shrU x k | .wrapping => Release.shrU x k)
  | .shr, .u32 x, k => .ofRust .u32 (match m with | .checked => shrU x k | .wrapping => Release.shrU x k)
  | .shr, .i32 x, k => .ofRust .i32 (match m with | .checked => sarI32 x k | .wrapping => Release.sarI32 x k)
  | _, _, _ => .stuck

/-- Binary operators. -/
def binOp (m : Mode) (op : BinOp) (a b : Val) : Out Val :=
  match op with
  | .shl | .shr => (match unsigned b with
    | some k => shift m op a k
    | none => .stuck)
  | _ => arith m op (litLike b a) (litLike a b)

/-- `a.pow(k)`. -/
def power (m : Mode) (a k : Val) : Out Val :=
  match a, k with
  | .u16 x, .u32 k => .ofRust .u16
      (match m with | .checked => powU 16 x.toNat k.toNat | .wrapping => Release.powU 16 x.toNat k.toNat)
  | .u32 x, .u32 k => .ofRust .u32
      (match m with | .checked => powU 32 x.toNat k.toNat | .wrapping => Release.powU 32 x.toNat k.toNat)
  | .i32 x, .u32 k => .ofRust .i32
      (match m with | .checked => chkI32 (x ^ k.toNat) | .wrapping => Release.chkI32 (x ^ k.toNat))
  | _, _ => .stuck

/-- `a as t`; a `u32` is truncated where `usize` is narrower. -/
def castTo (p : PtrWidth) : Val → Ty → Out Val
  | .u16 x, .usize => .val (.usize x.toNat)
  | .u32 x, .usize => .val (.usize (x.toNat % 2 ^ p.bits))
  | .u32 x, .i32 => .val (.i32 (asI32 x))
  | _, _ => .stuck

/-- `Ok(..)` of the number `n` if it is in range, as `try_from` returns it. -/
def inRange (k : Nat → Val) (bound n : Nat) : Val :=
  if n < bound then .variantOf .Result .Ok (k n) else .variantOf .Result .Err .unit

/-- `t::try_from(a)`; the error is represented by `()`. -/
def tryFromTo (t : Ty) (a : Val) : Out Val :=
  match unsigned a, t with
  | some n, .u8 => .val (inRange .u8 (2 ^ 8) n)
  | some n, .u16 => .val (inRange (fun n => .u16 (BitVec.ofNat 16 n)) (2 ^ 16) n)
  | some n, .u32 => .val (inRange (fun n => .u32 (BitVec.ofNat 32 n)) (2 ^ 32) n)
  | _, _ => .stuck

/-- `t::from(a)`. -/
def fromTo : Ty → Val → Out Val
  | .u32, .u16 x => .val (.u32 (x.setWidth 32))
  | _, _ => .stuck

/-- `a.into()`; the crate uses it from `u8` to `usize` only. -/
def intoTo : Val → Out Val
  | .u8 n => .val (.usize n)
  | _ => .stuck

/-- `a.unwrap()`. -/
def unwrapVal : Val → Out Val
  | .variantOf .Option .Some v => .val v
  | .variant .Option .None => .panic
  | .variantOf .Result .Ok v => .val v
  | .variantOf .Result .Err _ => .panic
  | _ => .stuck

/-- `a?`. -/
def questionVal : Val → Out Val
  | .variantOf .Result .Ok v => .val v
  | .variantOf .Result .Err v => .ret (.variantOf .Result .Err v)
  | _ => .stuck

/-- The outcome of a call: a `return` ends here, and a literal takes the return type. -/
def leave (t : Ty) : Out Val → Out Val
  | .val v => .val (coerce t v)
  | .ret v => .val (coerce t v)
  | .panic => .panic
  | .stuck => .stuck

/-- Bind the parameters. -/
def bindParams : List (Id × Ty) → List Val → Option Env
  | [], [] => some []
  | (x, t) :: ps, v :: vs => (bindParams ps vs).map ((x, .val (coerce t v)) :: ·)
  | _, _ => none

mutual

/-- `==`, as `derive(PartialEq)` defines it: the same variant, and equal fields.  Only numbers of type `usize` and
`i32`, `bool` and the declared types occur as fields; a literal takes the type of what it is compared with. -/
def eqVal : Val → Val → Bool
  | .usize a, .usize b => a == b
  | .i32 a, .i32 b => a == b
  | .bool a, .bool b => a == b
  | .variant _ c, .variant _ d => c == d
  | .variantOf _ c v, .variantOf _ d w => c == d && eqVal v w
  | .struct _ fs, .struct _ gs => eqFields fs gs
  | .usize a, .lit b => a == b
  | .i32 a, .lit b => a == b
  | _, _ => false

/-- Equal fields, compared in order. -/
def eqFields : List (Id × Val) → List (Id × Val) → Bool
  | [], [] => true
  | (_, v) :: fs, (_, w) :: gs => eqVal v w && eqFields fs gs
  | _, _ => false

end

/-- `-a`; the crate has no signed type but `i32`. -/
def negVal (m : Mode) : Val → Out Val
  | .lit n => .val (.i32 (-n))
  | .i32 z => .ofRust .i32 (match m with | .checked => chkI32 (-z) | .wrapping => Release.chkI32 (-z))
  | _ => .stuck

/-- A condition. -/
def cond {α : Type} (v : Val) (a b : Out α) : Out α :=
  match v with
  | .bool true => a
  | .bool false => b
  | _ => .stuck

/-- Match `v` against a pattern: continue with the variables bound by it, or with `fail`. -/
def matchPat {α : Type} (v : Val) (env : Env) : Pat → (Env → Out α) → Out α → Out α
  | .wild, k, _ => k env
  | .var x, k, _ => k ((x, .val v) :: env)
  | .lit n, k, fail => (match unsigned v with
    | some m => if m = n then k env else fail
    | none => .stuck)
  | .range lo hi, k, fail => (match unsigned v with
    | some m => if lo ≤ m ∧ m ≤ hi then k env else fail
    | none => .stuck)
  | .ctor ty c, k, fail => (match v with
    | .variant ty' c' => if ty = ty' then (if c = c' then k env else fail) else .stuck
    | .variantOf ty' _ _ => if ty = ty' then fail else .stuck
    | _ => .stuck)
  | .ctor1 ty c p, k, fail => (match v with
    | .variantOf ty' c' w => if ty = ty' then (if c = c' then matchPat w env p k fail else fail) else .stuck
    | .variant ty' _ => if ty = ty' then fail else .stuck
    | _ => .stuck)
  | .or p q, k, fail => matchPat v env p k (matchPat v env q k fail)

/-- The pieces that an argument of `write!` writes; `{}` on an enum calls its `fmt`. -/
def showVal (call : Id → Id → List Val → Out Val) : Spec → Val → Out (List String)
  | .display, .str s => .val [s]
  | .display, .usize n => .val [fmtUsize n]
  | .display, .i32 z => .val (piecesI32 z)
  | .display, .variant ty c => (do
    match ← call ty .fmt [.variant ty c] with
    | .wrote cs => .val cs
    | _ => .stuck)
  | .display, .variantOf ty c v => (do
    match ← call ty .fmt [.variantOf ty c v] with
    | .wrote cs => .val cs
    | _ => .stuck)
  | .lowerHex, .usize n => .val [hexNat n]
  | .lowerHex, .i32 z => .val [fmtI32Hex z]
  | .altLowerHex, .usize n => .val (piecesHex (hexNat n))
  | .altLowerHex, .i32 z => .val (piecesHex (fmtI32Hex z))
  | _, _ => .stuck

/-- `for (idx, elt) in vs.iter().rev().enumerate() { x |= b; }`, on the reversed array; `step` evaluates
`b`.  The index is a `usize`; it is always below the length of an array, which is one too. -/
def forLoop (step : Env → Out Val) (idx elt x : Id) : List Val → Nat → Env → Out Env
  | [], _, env => .val env
  | v :: vs, n, env => do
    let a ← Env.get env x
    let b ← step ((elt, .val v) :: (idx, .val (.usize n)) :: env)
    match a, b with
    | .u32 a, .u32 b => forLoop step idx elt x vs (n + 1) (Env.set env x (.u32 (a ||| b)))
    | _, _ => .stuck

/-- Calls where the function `x` of `owner` is `g`. -/
def local_ (call : Id → Id → List Val → Out Val) (owner x : Id) (g : List Val → Out Val) (o f : Id)
    (args : List Val) : Out Val :=
  if o = owner ∧ f = x then g args else call o f args

mutual

/-- Evaluate an expression. -/
def eval (md : Build) (call : Id → Id → List Val → Out Val) (env : Env) : Expr → Out Val
  | .lit n => .val (.lit n)
  | .litT n t => .val (coerce t (.lit n))
  | .unit => .val .unit
  | .bool b => .val (.bool b)
  | .str s => .val (.str s)
  | .var x => Env.get env x
  | .variant ty c => .val (.variant ty c)
  | .variantOf ty c e => do .val (.variantOf ty c (← eval md call env e))
  | .call owner f args => do call owner f (← evalArgs md call env args)
  | .method recv f args => do
    let v ← eval md call env recv
    let vs ← evalArgs md call env args
    match typeOf v with
    | some owner => call owner f (v :: vs)
    | none => .stuck
  | .callClosure x => Env.get env x
  | .field e x => do
    match ← eval md call env e with
    | .struct _ fs => getField fs x
    | _ => .stuck
  | .bin op a b => do binOp md.mode op (← eval md call env a) (← eval md call env b)
  | .neg e => do negVal md.mode (← eval md call env e)
  | .matches_ e p => do
    matchPat (← eval md call env e) env p (fun _ => .val (.bool true)) (.val (.bool false))
  | .cast e t => do castTo md.ptr (← eval md call env e) t
  | .tryFrom t e => do tryFromTo t (← eval md call env e)
  | .from_ t e => do fromTo t (← eval md call env e)
  | .pow a b => do power md.mode (← eval md call env a) (coerce .u32 (← eval md call env b))
  | .unwrap e => do unwrapVal (← eval md call env e)
  | .orElse e x b => do
    match ← eval md call env e with
    | .variantOf .Result .Ok v => .val v
    | .variantOf .Result .Err v => leave .other (eval md call ((x, .val v) :: env) b)
    | _ => .stuck
  | .into e => do intoTo (← eval md call env e)
  | .question e => do questionVal (← eval md call env e)
  | .ret e => do .ret (← eval md call env e)
  | .ite c a b => do cond (← eval md call env c) (eval md call env a) (eval md call env b)
  | .match_ e arms => do evalArms md call env (← eval md call env e) arms
  | .block ss => evalStmts md call env ss
  | .struct ty fs => do .val (.struct ty (← evalFields md call env fs))
  | .array es => do .val (.array (← evalArgs md call env es))
  | .unreachable => .panic
  | .write ps => do .val (.wrote (← evalPieces md call env ps))

/-- Evaluate arguments from left to right. -/
def evalArgs (md : Build) (call : Id → Id → List Val → Out Val) (env : Env) : Exprs → Out (List Val)
  | .nil => .val []
  | .cons e es => do
    let v ← eval md call env e
    let vs ← evalArgs md call env es
    .val (v :: vs)

/-- Take the first arm that matches. -/
def evalArms (md : Build) (call : Id → Id → List Val → Out Val) (env : Env) (v : Val) : Arms → Out Val
  | .nil => .stuck
  | .cons p e as => matchPat v env p (fun env => eval md call env e) (evalArms md call env v as)

/-- Evaluate the fields of a struct. -/
def evalFields (md : Build) (call : Id → Id → List Val → Out Val) (env : Env) : Fields → Out (List (Id × Val))
  | .nil => .val []
  | .cons x e fs => do
    let v ← eval md call env e
    let vs ← evalFields md call env fs
    .val ((x, v) :: vs)

/-- The pieces that a format string writes: its literal parts and its arguments, from left to right. -/
def evalPieces (md : Build) (call : Id → Id → List Val → Out Val) (env : Env) : Pieces → Out (List String)
  | .nil => .val []
  | .text s ps => do .val (s :: (← evalPieces md call env ps))
  | .arg spec e ps => do
    let s ← showVal call spec (← eval md call env e)
    let t ← evalPieces md call env ps
    .val (s ++ t)

/-- Run the statements of a block. -/
def evalStmts (md : Build) (call : Id → Id → List Val → Out Val) (env : Env) : Stmts → Out Val
  | .done e => eval md call env e
  | .let_ x t e ss => do
    let v ← eval md call env e
    evalStmts md call ((x, .val (coerce t v)) :: env) ss
  | .letClosure x e ss => evalStmts md call ((x, eval md call env e) :: env) ss
  | .letFn owner x ps b ss =>
    evalStmts md (local_ call owner x fun args => match bindParams ps args with
      | some env' => leave .other (eval md call (env' ++ env) b)
      | none => .stuck) env ss
  | .expr e ss => do
    let _ ← eval md call env e
    evalStmts md call env ss
  | .assert e ss => do
    cond (← eval md call env e) (evalStmts md call env ss) .panic
  | .assertEq eq a b ss => do
    let v ← eval md call env a
    let w ← eval md call env b
    cond (.bool (eqVal v w == eq)) (evalStmts md call env ss) .panic
  | .forRevEnum idx elt e x b ss => do
    match ← eval md call env e with
    | .array vs =>
      let env' ← forLoop (fun env => eval md call env b) idx elt x vs.reverse 0 env
      evalStmts md call env' ss
    | _ => .stuck

end

/-- Run a function on arguments. -/
def run (md : Build) (call : Id → Id → List Val → Out Val) (fn : Fn) (args : List Val) : Out Val :=
  match bindParams fn.params args with
  | some env => leave fn.ret (eval md call env fn.body)
  | none => .stuck

/-- Find a function of the program. -/
def find : List Fn → Id → Id → Option Fn
  | [], _, _ => none
  | fn :: fns, owner, f => if owner = fn.owner ∧ f = fn.name then some fn else find fns owner f

/-- Call a function of the program `fns`, with calls nested at most `depth` deep. -/
def call (fns : List Fn) (md : Build) : Nat → Id → Id → List Val → Out Val
  | 0, _, _, _ => .stuck
  | depth + 1, owner, f, args =>
    match find fns owner f with
    | some fn => run md (call fns md depth) fn args
    | none => .stuck

/-- The outcome of `to_string`: the pieces put together. -/
def text : Out Val → Out Val
  | .val (.wrote cs) => .val (.str (String.join cs))
  | x => x

/-- The outcome of a `fmt` function that writes into a sink in state `s`: the pieces are handed over in turn, up
to the first refusal. -/
def writeTo {σ : Type} (w : Sink σ) (s : σ) : Out Val → Option (FmtOut σ Unit)
  | .val (.wrote cs) => some (writePieces w cs s)
  | .panic => some (.panic s)
  | _ => none

end Raki.Source
