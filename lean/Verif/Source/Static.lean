import Verif.Source.Eval
/-!
# Evaluation that goes by types

The evaluator of `Verif.Source.Eval` goes by values where Rust goes by types.  This one takes programs in which the
types have been written out.  Every literal must have its type, so that no value changes its type when it is bound,
passed or returned, and operands are taken as they are; every call must name its function.  It is stuck on a literal
without a type, on a method call, and on `write!` of a value of a type of the crate: there the call of `fmt` has to be
written.
-/

namespace Raki.Source.Static

/-- A literal of the type. -/
def literal : Ty → Nat → Out Val
  | .u8, n => .val (.u8 n)
  | .u16, n => .val (.u16 (BitVec.ofNat 16 n))
  | .u32, n => .val (.u32 (BitVec.ofNat 32 n))
  | .usize, n => .val (.usize n)
  | .i32, n => .val (.i32 n)
  | _, _ => .stuck

/-- The number a shift amount denotes. -/
def amount : Val → Option Nat
  | .u8 n => some n
  | .u16 x => some x.toNat
  | .u32 x => some x.toNat
  | .usize n => some n
  | _ => none

/-- Binary operators. -/
def binOp (m : Mode) (op : BinOp) (a b : Val) : Out Val :=
  match op with
  | .shl | .shr => (match amount b with
    | some k => shift m op a k
    | none => .stuck)
  | _ => arith m op a b

/-- `-a`. -/
def negVal (m : Mode) : Val → Out Val
  | .i32 z => .ofRust .i32 (match m with | .checked => chkI32 (-z) | .wrapping => Release.chkI32 (-z))
  | _ => .stuck

/-- The outcome of a call: a `return` ends here. -/
def leave : Out Val → Out Val
  | .val v => .val v
  | .ret v => .val v
  | .panic => .panic
  | .stuck => .stuck

/-- Bind the parameters. -/
def bindParams : List (Id × Ty) → List Val → Option Env
  | [], [] => some []
  | (x, _) :: ps, v :: vs => (bindParams ps vs).map ((x, .val v) :: ·)
  | _, _ => none

/-- The pieces that an argument of `write!` writes; what `fmt` has written is written as it is. -/
def showVal : Spec → Val → Out (List String)
  | .display, .str s => .val [s]
  | .display, .usize n => .val [fmtUsize n]
  | .display, .i32 z => .val (piecesI32 z)
  | .display, .wrote cs => .val cs
  | .lowerHex, .usize n => .val [hexNat n]
  | .lowerHex, .i32 z => .val [fmtI32Hex z]
  | .altLowerHex, .usize n => .val (piecesHex (hexNat n))
  | .altLowerHex, .i32 z => .val (piecesHex (fmtI32Hex z))
  | _, _ => .stuck

mutual

/-- Evaluate an expression. -/
def eval (md : Build) (call : Id → Id → List Val → Out Val) (env : Env) : Expr → Out Val
  | .lit _ => .stuck
  | .litT n t => literal t n
  | .unit => .val .unit
  | .bool b => .val (.bool b)
  | .str s => .val (.str s)
  | .var x => Env.get env x
  | .variant ty c => .val (.variant ty c)
  | .variantOf ty c e => do .val (.variantOf ty c (← eval md call env e))
  | .call owner f args => do call owner f (← evalArgs md call env args)
  | .method _ _ _ => .stuck
  | .callClosure x => Env.get env x
  | .field e x => do
    match ← eval md call env e with
    | .struct _ fs => getField fs x
    | _ => .stuck
  | .bin op a b => do binOp md.mode op (← eval md call env a) (← eval md call env b)
  | .neg e => do negVal md.mode (← eval md call env e)
  | .matches_ e p => do
    matchPat (← eval md call env e) env p (fun _ => .val (.bool true)) (.val (.bool false))
  | .cast e t => do castTo md.ptr (← eval md call env e) t
  | .tryFrom t e => do tryFromTo t (← eval md call env e)
  | .from_ t e => do fromTo t (← eval md call env e)
  | .pow a b => do power md.mode (← eval md call env a) (← eval md call env b)
  | .unwrap e => do unwrapVal (← eval md call env e)
  | .orElse e x b => do
    match ← eval md call env e with
    | .variantOf .Result .Ok v => .val v
    | .variantOf .Result .Err v => leave (eval md call ((x, .val v) :: env) b)
    | _ => .stuck
  | .into e => do intoTo (← eval md call env e)
  | .question e => do questionVal (← eval md call env e)
  | .ret e => do .ret (← eval md call env e)
  | .ite c a b => do cond (← eval md call env c) (eval md call env a) (eval md call env b)
  | .match_ e arms => do evalArms md call env (← eval md call env e) arms
  | .block ss => evalStmts md call env ss
  | .struct ty fs => do .val (.struct ty (← evalFields md call env fs))
  | .array es => do .val (.array (← evalArgs md call env es))
  | .unreachable => .panic
  | .write ps => do .val (.wrote (← evalPieces md call env ps))

/-- Evaluate arguments from left to right. -/
def evalArgs (md : Build) (call : Id → Id → List Val → Out Val) (env : Env) : Exprs → Out (List Val)
  | .nil => .val []
  | .cons e es => do
    let v ← eval md call env e
    let vs ← evalArgs md call env es
    .val (v :: vs)

/-- Take the first arm that matches. -/
def evalArms (md : Build) (call : Id → Id → List Val → Out Val) (env : Env) (v : Val) : Arms → Out Val
  | .nil => .stuck
  | .cons p e as => matchPat v env p (fun env => eval md call env e) (evalArms md call env v as)

/-- Evaluate the fields of a struct. -/
def evalFields (md : Build) (call : Id → Id → List Val → Out Val) (env : Env) : Fields → Out (List (Id × Val))
  | .nil => .val []
  | .cons x e fs => do
    let v ← eval md call env e
    let vs ← evalFields md call env fs
    .val ((x, v) :: vs)

/-- The pieces that a format string writes. -/
def evalPieces (md : Build) (call : Id → Id → List Val → Out Val) (env : Env) : Pieces → Out (List String)
  | .nil => .val []
  | .text s ps => do .val (s :: (← evalPieces md call env ps))
  | .arg spec e ps => do
    let s ← showVal spec (← eval md call env e)
    let t ← evalPieces md call env ps
    .val (s ++ t)

/-- Run the statements of a block; there are no local functions and no comparisons of values in the crate. -/
def evalStmts (md : Build) (call : Id → Id → List Val → Out Val) (env : Env) : Stmts → Out Val
  | .done e => eval md call env e
  | .let_ x _ e ss => do
    let v ← eval md call env e
    evalStmts md call ((x, .val v) :: env) ss
  | .letClosure x e ss => evalStmts md call ((x, eval md call env e) :: env) ss
  | .letFn _ _ _ _ _ => .stuck
  | .expr e ss => do
    let _ ← eval md call env e
    evalStmts md call env ss
  | .assert e ss => do
    cond (← eval md call env e) (evalStmts md call env ss) .panic
  | .assertEq _ _ _ _ => .stuck
  | .forRevEnum idx elt e x b ss => do
    match ← eval md call env e with
    | .array vs =>
      let env' ← forLoop (fun env => eval md call env b) idx elt x vs.reverse 0 env
      evalStmts md call env' ss
    | _ => .stuck

end

/-- Run a function on arguments. -/
def run (md : Build) (call : Id → Id → List Val → Out Val) (fn : Fn) (args : List Val) : Out Val :=
  match bindParams fn.params args with
  | some env => leave (eval md call env fn.body)
  | none => .stuck

/-- Call a function of the program `fns`, with calls nested at most `depth` deep. -/
def call (fns : List Fn) (md : Build) : Nat → Id → Id → List Val → Out Val
  | 0, _, _, _ => .stuck
  | depth + 1, owner, f, args =>
    match find fns owner f with
    | some fn => run md (call fns md depth) fn args
    | none => .stuck

end Raki.Source.Static
