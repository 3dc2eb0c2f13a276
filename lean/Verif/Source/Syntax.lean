import Verif.Source.Names
/-!
# Syntax of the Rust subset the crate is written in

`Verif.Source.Program` holds the crate's functions in this syntax.  References and dereferences are
dropped: nothing in the crate is mutated through a reference.
-/

namespace Raki.Source

/-- The types that matter when evaluating: a literal takes its type from a parameter, a `let` or a
return type. -/
inductive Ty where
  | u8 | u16 | u32 | usize | i32
  /-- `Option<t>` -/
  | option (t : Ty)
  /-- `Result<t, DecodingError>` -/
  | result (t : Ty)
  /-- `[t]` -/
  | array (t : Ty)
  /-- any other type -/
  | other

/-- Binary operators. -/
inductive BinOp where
  | add | sub | and | or | shl | shr | eq | ge

/-- Patterns. -/
inductive Pat where
  /-- `_` -/
  | wild
  /-- `x` -/
  | var (x : Id)
  /-- an integer literal -/
  | lit (n : Nat)
  /-- `lo..=hi` -/
  | range (lo hi : Nat)
  /-- `ty::c` -/
  | ctor (ty c : Id)
  /-- `ty::c(p)`; `Ok(p)`, `Err(p)` and `Some(p)` belong to `Result` and `Option` -/
  | ctor1 (ty c : Id) (p : Pat)
  /-- `p | q` -/
  | or (p q : Pat)

/-- How `write!` shows an argument: `{}`, `{:x}` and `{:#x}`. -/
inductive Spec where
  | display | lowerHex | altLowerHex

mutual

/-- Expressions. -/
inductive Expr where
  /-- an integer literal without suffix -/
  | lit (n : Nat)
  /-- an integer literal with a suffix, as `2_u32` -/
  | litT (n : Nat) (t : Ty)
  /-- `()`, the value of a missing `else` -/
  | unit
  | bool (b : Bool)
  | str (s : String)
  | var (x : Id)
  /-- `ty::c` -/
  | variant (ty c : Id)
  /-- `ty::c(e)` -/
  | variantOf (ty c : Id) (e : Expr)
  /-- a call of the function `f` of the module or type `owner` -/
  | call (owner f : Id) (args : Exprs)
  /-- `recv.f(args)` -/
  | method (recv : Expr) (f : Id) (args : Exprs)
  /-- `x()` where `x` is a closure -/
  | callClosure (x : Id)
  /-- `e.x` -/
  | field (e : Expr) (x : Id)
  | bin (op : BinOp) (a b : Expr)
  /-- `-e` -/
  | neg (e : Expr)
  /-- `matches!(e, p)` -/
  | matches_ (e : Expr) (p : Pat)
  /-- `e as t` -/
  | cast (e : Expr) (t : Ty)
  /-- `t::try_from(e)` -/
  | tryFrom (t : Ty) (e : Expr)
  /-- `t::from(e)` -/
  | from_ (t : Ty) (e : Expr)
  /-- `a.pow(b)` -/
  | pow (a b : Expr)
  /-- `e.unwrap()` and `e.expect(..)` -/
  | unwrap (e : Expr)
  /-- `e.unwrap_or_else(|x| b)` -/
  | orElse (e : Expr) (x : Id) (b : Expr)
  /-- `e.into()` -/
  | into (e : Expr)
  /-- `e?` -/
  | question (e : Expr)
  /-- `return e` -/
  | ret (e : Expr)
  | ite (c a b : Expr)
  | match_ (e : Expr) (arms : Arms)
  | block (ss : Stmts)
  /-- `ty { x: e, .. }` -/
  | struct (ty : Id) (fs : Fields)
  /-- `[a, b, ..]` -/
  | array (es : Exprs)
  /-- `unreachable!()` and `panic!(..)` -/
  | unreachable
  /-- `write!(f, ..)` -/
  | write (ps : Pieces)

/-- Argument lists. -/
inductive Exprs where
  | nil
  | cons (e : Expr) (es : Exprs)

/-- The arms of a `match`. -/
inductive Arms where
  | nil
  | cons (p : Pat) (e : Expr) (as : Arms)

/-- The fields of a struct expression. -/
inductive Fields where
  | nil
  | cons (x : Id) (e : Expr) (fs : Fields)

/-- A format string, cut at its arguments. -/
inductive Pieces where
  | nil
  | text (s : String) (ps : Pieces)
  | arg (spec : Spec) (e : Expr) (ps : Pieces)

/-- The statements of a block and the expression that ends it. -/
inductive Stmts where
  | done (e : Expr)
  /-- `let x: t = e;` -/
  | let_ (x : Id) (t : Ty) (e : Expr) (ss : Stmts)
  /-- `let x = || e;` -/
  | letClosure (x : Id) (e : Expr) (ss : Stmts)
  /-- `let x = |p: t, ..| b;`, a function known to the rest of the block, where it is called as if `owner` owned it -/
  | letFn (owner x : Id) (ps : List (Id × Ty)) (b : Expr) (ss : Stmts)
  /-- `e;` -/
  | expr (e : Expr) (ss : Stmts)
  /-- `assert!(e);` -/
  | assert (e : Expr) (ss : Stmts)
  /-- `assert_eq!(a, b, ..);` if `eq`, otherwise `assert_ne!(a, b, ..);` -/
  | assertEq (eq : Bool) (a b : Expr) (ss : Stmts)
  /-- `for (idx, elt) in e.iter().rev().enumerate() { x |= b; }` -/
  | forRevEnum (idx elt : Id) (e : Expr) (x : Id) (b : Expr) (ss : Stmts)

end

/-- A function: the module or type it belongs to, its name, parameters, return type and body. -/
structure Fn where
  owner : Id
  name : Id
  params : List (Id × Ty)
  ret : Ty
  body : Expr

/-- The traits that can be derived. -/
inductive Derive where
  | Copy | Clone | Debug | PartialEq

/-- The right-hand side of a type declaration. -/
inductive Shape where
  /-- the variants, each with the type of its argument if it has one -/
  | enum (vs : List (Id × Option Id))
  /-- the fields and their types -/
  | struct (fs : List (Id × Ty))

/-- A type declaration. -/
structure TypeDecl where
  name : Id
  derives : List Derive
  shape : Shape

end Raki.Source
