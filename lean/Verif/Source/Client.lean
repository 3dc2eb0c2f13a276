import Verif.Source.Derived
import Verif.Source.DocRead
import Verif.Source.Scope
/-!
# Programs that use the crate

The code in the documentation and in README.md is not part of the crate: it is written as another crate would write it.
This file reads such code and runs it.  The functions of the crate are a parameter of the run, so that one can ask what
the examples say about a crate that does something else.

Code without a function `main` is run as rustdoc runs it: the whole of it is the body of `main`.  A function declared in
it is then a declaration inside `main`, and its body does not run unless it is called.
-/

set_option linter.constructorNameAsVariable false

namespace Raki.Source

/-- Expressions.  Variables are the numbers that spell their names. -/
inductive CExpr where
  | var (x : Nat)
  | num (n : Nat)
  /-- `ty::c` -/
  | variant (ty c : Id)
  /-- `ty::c(e)` -/
  | variantOf (ty c : Id) (e : CExpr)
  /-- `e.f(a)` -/
  | method (e : CExpr) (f : Id) (a : CExpr)
  /-- `e.x` -/
  | field (e : CExpr) (x : Id)
  /-- `match e { Ok(x) => a, Err(_) => panic!(..) }` -/
  | okOrPanic (e : CExpr) (x : Nat) (a : CExpr)
  /-- `matches!(e, ty::c)` -/
  | matches_ (e : CExpr) (ty c : Id)

/-- The parts of a format string: text, `{}` and `{:?}`. -/
inductive CPiece where
  | text (s : String)
  | display (e : CExpr)
  | debug (e : CExpr)

/-- Statements. -/
inductive CStmts where
  | done
  /-- `fn f() { body }` -/
  | fn (f : Nat) (body rest : CStmts)
  /-- `let x: t = e;` -/
  | let_ (x : Nat) (t : Ty) (e : CExpr) (rest : CStmts)
  /-- `if let Err(x) = e { body }` -/
  | ifErr (x : Nat) (e : CExpr) (body rest : CStmts)
  /-- `assert!(e);` -/
  | assert (e : CExpr) (rest : CStmts)
  /-- `assert_eq!(a, b);` -/
  | assertEq (a b : CExpr) (rest : CStmts)
  /-- `println!(..);` -/
  | println (ps : List CPiece) (rest : CStmts)

/-! ## Reading -/

/-- The type with this name, if the name is in scope. -/
def inScope (names : List Nat) (n : Nat) : Option Id :=
  match names.any (Nat.beq n) with
  | true => ident n
  | false => none

/-- `Decode`, the trait that has to be in scope where `decode` is called. -/
def decodeTrait : Nat := spell [68, 101, 99, 111, 100, 101] 0

/-- `raki` -/
def rakiName : Nat := spell [114, 97, 107, 105] 0

/-- `println` -/
def printlnName : Nat := spell [112, 114, 105, 110, 116, 108, 110] 0

/-- `main` -/
def mainName : Nat := spell [109, 97, 105, 110] 0

/-- `.f(a)` and `.x` after an expression. -/
def cpostP (names : List Nat) (go : P CExpr) : Nat → CExpr → P CExpr
  | 0, _, _ => none
  | k + 1, e, ts => match ts with
    | .op .dot :: .name f :: .op .lparen :: ts => do
      let f ← match ident f, names.any (Nat.beq decodeTrait) with
        | some .decode, true => some Id.decode
        | _, _ => none
      let (a, ts) ← go ts
      let ts ← want .rparen ts
      cpostP names go k (.method e f a) ts
    | .op .dot :: .name x :: ts => do
      let x ← ident x
      cpostP names go k (.field e x) ts
    | ts => some (e, ts)

/-- The pattern `i(x)` and `=>`. -/
def carmP (i : Id) : P Nat
  | .name c :: .op .lparen :: .name x :: .op .rparen :: .op .fatArrow :: ts => match ident c with
    | some j => match decide (i = j) with
      | true => some (x, ts)
      | false => none
    | none => none
  | _ => none

/-- An operand. -/
def cprimaryP (names : List Nat) (go : P CExpr) (ts : List Tok) : Option (CExpr × List Tok) :=
  match ts with
  | .num n none :: ts => some (.num n, ts)
  | .kw .match :: ts => do
    let (e, ts) ← go ts
    let ts ← want .lbrace ts
    let (x, ts) ← carmP .Ok ts
    let (a, ts) ← go ts
    let ts ← want .comma ts
    let (_, ts) ← carmP .Err ts
    match ts with
    | .kw .panic :: .op .bang :: .op .lparen :: ts => do
      let ts ← skipParens 1 ts
      let ts ← want .comma ts
      let ts ← want .rbrace ts
      some (.okOrPanic e x a, ts)
    | _ => none
  | .kw .matches :: .op .bang :: .op .lparen :: ts => do
    let (e, ts) ← go ts
    match ts with
    | .op .comma :: .name t :: .op .colon2 :: .name c :: .op .rparen :: ts => do
      let t ← inScope names t
      let c ← ident c
      some (.matches_ e t c, ts)
    | _ => none
  | .name t :: .op .colon2 :: .name c :: .op .lparen :: ts => do
    let t ← inScope names t
    let c ← ident c
    let (e, ts) ← go ts
    let ts ← want .rparen ts
    some (.variantOf t c e, ts)
  | .name t :: .op .colon2 :: .name c :: ts => do
    let t ← inScope names t
    let c ← ident c
    some (.variant t c, ts)
  | .name x :: ts => some (.var x, ts)
  | _ => none

/-- An expression, nested at most this deep. -/
def cexprP (names : List Nat) : Nat → P CExpr
  | 0, _ => none
  | k + 1, ts => do
    let (e, ts) ← cprimaryP names (cexprP names k) ts
    cpostP names (cexprP names k) k e ts

/-- The parts of a format string and their arguments: `{x}`, `{x:?}`, `{}` and `{:?}`. -/
def cpieces : List Seg → List CExpr → Option (List CPiece)
  | [], [] => some []
  | [], _ :: _ => none
  | .text s :: ss, es => do
    let ps ← cpieces ss es
    some (.text (String.ofList (s.map Char.ofNat)) :: ps)
  | .hole h :: ss, es => do
    let k ← match (hole h).2 with
      | [] => some CPiece.display
      | [63] => some CPiece.debug
      | _ => none
    match (hole h).1, es with
    | [], e :: es => do
      let ps ← cpieces ss es
      some (k e :: ps)
    | [], [] => none
    | n, es => do
      let ps ← cpieces ss es
      some (k (.var (spell n 0)) :: ps)

/-- The type that is written behind a variable. -/
def ctyP (names : List Nat) (t : Nat) : Option Ty :=
  match (ident t).bind intTy, inScope names t with
  | some t, _ => some t
  | none, some _ => some .other
  | none, none => none

/-- The names that `use raki::..;` brings into scope; all of them have to be public. -/
def cuseP (pub : List Nat) : List (List Nat) → Option (List Nat)
  | [] => some []
  | [r, n] :: us => match Nat.beq r rakiName, pub.any (Nat.beq n), cuseP pub us with
    | true, true, some ns => some (n :: ns)
    | _, _, _ => none
  | _ => none

/-- Statements, up to the closing brace; `names` are in scope and `pub` are the public names of the crate. -/
def cstmtsP (pub : List Nat) : Nat → List Nat → P CStmts
  | 0, _, _ => none
  | k + 1, names, ts => match ts with
    | .op .rbrace :: ts => some (.done, ts)
    | .kw .use :: ts => do
      let (us, ts) ← useP k [] ts
      let ts ← want .semi ts
      let ns ← cuseP pub us
      cstmtsP pub k (ns ++ names) ts
    | .kw .fn :: .name f :: .op .lparen :: .op .rparen :: .op .lbrace :: ts => do
      let (b, ts) ← cstmtsP pub k names ts
      let (ss, ts) ← cstmtsP pub k names ts
      some (.fn f b ss, ts)
    | .kw .let :: .name x :: .op .colon :: .name t :: .op .eq :: ts => do
      let t ← ctyP names t
      let (e, ts) ← cexprP names k ts
      let ts ← want .semi ts
      let (ss, ts) ← cstmtsP pub k names ts
      some (.let_ x t e ss, ts)
    | .kw .if :: .kw .let :: .name c :: .op .lparen :: .name x :: .op .rparen :: .op .eq :: ts => match ident c with
      | some .Err => do
        let (e, ts) ← cexprP names k ts
        let ts ← want .lbrace ts
        let (b, ts) ← cstmtsP pub k names ts
        let (ss, ts) ← cstmtsP pub k names ts
        some (.ifErr x e b ss, ts)
      | _ => none
    | .kw .assert :: .op .bang :: .op .lparen :: ts => do
      let (e, ts) ← cexprP names k ts
      let ts ← want .rparen ts
      let ts ← want .semi ts
      let (ss, ts) ← cstmtsP pub k names ts
      some (.assert e ss, ts)
    | .kw .assert_eq :: .op .bang :: .op .lparen :: ts => do
      let (a, ts) ← cexprP names k ts
      let ts ← want .comma ts
      let (b, ts) ← cexprP names k ts
      let ts ← want .rparen ts
      let ts ← want .semi ts
      let (ss, ts) ← cstmtsP pub k names ts
      some (.assertEq a b ss, ts)
    | .name p :: .op .bang :: .op .lparen :: .str s :: ts => match Nat.beq p printlnName with
      | true => do
        let (es, ts) ← match ts with
          | .op .comma :: ts => (cexprP names k ts).map fun (e, ts) => ([e], ts)
          | ts => some ([], ts)
        let ts ← want .rparen ts
        let ts ← want .semi ts
        let ps ← (cut [] false s).bind (cpieces · es)
        let (ss, ts) ← cstmtsP pub k names ts
        some (.println ps ss, ts)
      | false => none
    | _ => none

/-- The body of the function `f` declared in the statements. -/
def CStmts.body (f : Nat) : CStmts → Option CStmts
  | .fn g b ss => match Nat.beq f g with
    | true => some b
    | false => ss.body f
  | _ => none

/-- Read code that uses the crate, given the names that the crate makes public: the body of its `main`. -/
def client (pub : List Nat) (text : List (List Nat)) : Option CStmts := do
  let ts ← lexLines text
  match cstmtsP pub 100 [] (ts ++ [.op .rbrace]) with
  | some (ss, []) => some ((ss.body mainName).getD ss)
  | _ => none

/-! ## Running -/

/-- Look up a variable. -/
def lookupVar : List (Nat × Val) → Nat → Out Val
  | [], _ => .stuck
  | (y, v) :: env, x => if x = y then .val v else lookupVar env x

/-- Evaluate an expression, where `call` calls the functions of the crate. -/
def ceval (call : Id → Id → List Val → Out Val) (env : List (Nat × Val)) : CExpr → Out Val
  | .var x => lookupVar env x
  | .num n => .val (.lit n)
  | .variant ty c => .val (.variant ty c)
  | .variantOf ty c e => do .val (.variantOf ty c (← ceval call env e))
  | .method e f a => do
    let v ← ceval call env e
    let w ← ceval call env a
    match typeOf v with
    | some ty => call ty f [v, w]
    | none => .stuck
  | .field e x => do
    match ← ceval call env e with
    | .struct _ fs => getField fs x
    | _ => .stuck
  | .okOrPanic e x a => do
    match ← ceval call env e with
    | .variantOf .Result .Ok v => ceval call ((x, v) :: env) a
    | .variantOf .Result .Err _ => .panic
    | _ => .stuck
  | .matches_ e ty c => do
    matchPat (← ceval call env e) [] (.ctor ty c) (fun _ => .val (.bool true)) (.val (.bool false))

/-- The text that a format string stands for; `{}` calls `fmt`, and `{:?}` is derived. -/
def ctext (call : Id → Id → List Val → Out Val) (env : List (Nat × Val)) : List CPiece → Out String
  | [] => .val ""
  | .text s :: ps => do .val (s ++ (← ctext call env ps))
  | .display e :: ps => do
    let v ← ceval call env e
    match typeOf v with
    | some ty => do
      match ← call ty .fmt [v] with
      | .wrote cs => do .val (String.join cs ++ (← ctext call env ps))
      | _ => .stuck
    | none => .stuck
  | .debug e :: ps => do
    let v ← ceval call env e
    .val (debugVal v ++ (← ctext call env ps))

/-- How a program ends, and the lines it has printed by then. -/
inductive Ending where
  | ended (out : List String)
  | panicked (out : List String)
  | stuck

/-- Go on with the value of an expression. -/
def Ending.after {α : Type} (out : List String) (x : Out α) (k : α → Ending) : Ending :=
  match x with
  | .val v => k v
  | .panic => .panicked out
  | _ => .stuck

/-- Ending statements; `out` is what has been printed before. -/
def crun (call : Id → Id → List Val → Out Val) : List (Nat × Val) → List String → CStmts → Ending
  | _, out, .done => .ended out
  | env, out, .fn _ _ ss => crun call env out ss
  | env, out, .let_ x t e ss => Ending.after out (ceval call env e) fun v => crun call ((x, coerce t v) :: env) out ss
  | env, out, .ifErr x e b ss => Ending.after out (ceval call env e) fun v => match v with
    | .variantOf .Result .Err w => (match crun call ((x, w) :: env) out b with
      | .ended out => crun call env out ss
      | r => r)
    | .variantOf .Result .Ok _ => crun call env out ss
    | _ => .stuck
  | env, out, .assert e ss => Ending.after out (ceval call env e) fun v => match v with
    | .bool true => crun call env out ss
    | .bool false => .panicked out
    | _ => .stuck
  | env, out, .assertEq a b ss => Ending.after out (ceval call env a) fun v =>
    Ending.after out (ceval call env b) fun w => match eqVal v w with
    | true => crun call env out ss
    | false => .panicked out
  | env, out, .println ps ss => Ending.after out (ctext call env ps) fun s => crun call env (out ++ [s]) ss

end Raki.Source
