import Verif.Source.Lexer
/-!
# Reading tokens as syntax trees

A recursive-descent parser for the part of Rust the crate uses.  Each `…P` function below is the rule of one
kind of phrase; where a rule needs another rule inside it, it takes that from a record `Rules`, and `rules n`
ties the knot `n` levels deep.  A phrase outside this part of the language makes the parser fail.

What the trees leave out: `&` and `*` in front of an expression (nothing in the crate is mutated through a
reference), attributes other than `derive` and `cfg(test)`, visibility, `use` lines, type parameters, the argument
`f` of `fmt`, the messages of panics and assertions, and the source location that tests hand to each other, which
only messages use.
-/

set_option linter.constructorNameAsVariable false

namespace Raki.Source

/-- What a phrase is read in: the module and the type or module that owns the function, the type `Self`
stands for, the enumerations and functions of the crate, the closures in scope, and whether `x {` is the
start of a struct expression.  `test` tells whether items marked `cfg(test)` are read. -/
structure Ctx where
  mod : Nat
  owner : Nat
  selfTy : Option Nat
  enums : List Nat
  fns : List (Nat × Nat)
  closures : List Nat
  structOk : Bool
  test : Bool

/-- A parser: the phrase and the tokens after it. -/
abbrev P (α : Type) := List Tok → Option (α × List Tok)

/-- The rules that other rules refer to. -/
structure Rules where
  /-- an expression of at least this binding strength -/
  expr : Ctx → Nat → P Expr
  /-- more operators of this binding strength after a left operand -/
  bin : Ctx → Nat → Expr → P Expr
  /-- `as t` after an expression -/
  cast : Ctx → Expr → P Expr
  unary : Ctx → P Expr
  /-- `?`, `.f(..)` and `.x` after an expression -/
  post : Ctx → Expr → P Expr
  /-- expressions up to a closing token -/
  args : Ctx → Op → P (List Expr)
  arms : Ctx → P Arms
  fields : Ctx → P Fields
  stmts : Ctx → P Stmts
  pat : Ctx → P Pat
  ty : Ctx → P Ty
  /-- names separated by `::` after the first -/
  segs : P (List Nat)

/-- The identifier with this spelling. -/
def ident (c : Nat) : Option Id :=
  match words.find c with
  | some (.id i) => some i
  | _ => none

/-- `a_b`, given the spellings of `a` and `b`. -/
def joinName (a b : Nat) : Nat := (a * 256 + 95) * 256 ^ (Nat.log2 b / 8 + 1) + b

/-- The integer types. -/
def intTy : Id → Option Ty
  | .u8 => some .u8 | .u16 => some .u16 | .u32 => some .u32 | .usize => some .usize | .i32 => some .i32
  | _ => none

/-- Exactly this punctuation. -/
def want (o : Op) : List Tok → Option (List Tok)
  | .op p :: ts => match Nat.beq o.ctorIdx p.ctorIdx with
    | true => some ts
    | false => none
  | _ => none

/-- This punctuation, if it is there. -/
def eat (o : Op) (ts : List Tok) : Bool × List Tok :=
  match want o ts with
  | some us => (true, us)
  | none => (false, ts)

/-- A comma, which may be left out before the closing token. -/
def sep (close : Op) (ts : List Tok) : Option (List Tok) :=
  match want .comma ts, want close ts with
  | some us, _ => some us
  | none, some _ => some ts
  | none, none => none

/-- An identifier. -/
def identP : P Id
  | .name c :: ts => match ident c with
    | some i => some (i, ts)
    | none => none
  | _ => none

/-- Skip to the end of `[..]`; the counter holds the open brackets. -/
def skipBrackets : Nat → List Tok → Option (List Tok)
  | _, [] => none
  | d, .op .lbrack :: ts => skipBrackets (d + 1) ts
  | 0, .op .rbrack :: _ => none
  | 1, .op .rbrack :: ts => some ts
  | d + 1, .op .rbrack :: ts => skipBrackets d ts
  | d, _ :: ts => skipBrackets d ts

/-- Skip attributes; the counter holds the open brackets. -/
def skipAttrs : Nat → List Tok → Option (List Tok)
  | 0, .op .hash :: .op .lbrack :: ts => skipAttrs 1 ts
  | 0, .op .hash :: .op .bang :: .op .lbrack :: ts => skipAttrs 1 ts
  | 0, ts => some ts
  | _ + 1, [] => none
  | d + 1, .op .lbrack :: ts => skipAttrs (d + 2) ts
  | d + 1, .op .rbrack :: ts => skipAttrs d ts
  | d + 1, _ :: ts => skipAttrs (d + 1) ts

/-- A trait that can be derived. -/
def deriveOf : Kw → Option Derive
  | .Copy => some .Copy | .Clone => some .Clone | .Debug => some .Debug | .PartialEq => some .PartialEq
  | _ => none

/-- The names inside `derive(..)`. -/
def derivesP : List Tok → Option (List Derive × List Tok)
  | .op .rparen :: .op .rbrack :: ts => some ([], ts)
  | .kw k :: .op .rparen :: .op .rbrack :: ts => (deriveOf k).map fun d => ([d], ts)
  | .kw k :: .op .comma :: ts => match deriveOf k, derivesP ts with
    | some d, some (ds, ts) => some (d :: ds, ts)
    | _, _ => none
  | _ => none

/-- Attributes; only `derive` and `cfg(test)` say anything. -/
def attrsP : Nat → List Tok → Option ((List Derive × Bool) × List Tok)
  | n + 1, .op .hash :: .op .lbrack :: .kw .derive :: .op .lparen :: ts => do
    let (ds, ts) ← derivesP ts
    let ((es, t), ts) ← attrsP n ts
    some ((ds ++ es, t), ts)
  | n + 1, .op .hash :: .op .lbrack :: .kw .cfg :: .op .lparen :: .kw .test :: .op .rparen :: .op .rbrack :: ts => do
    let ((es, _), ts) ← attrsP n ts
    some ((es, true), ts)
  | n + 1, .op .hash :: .op .lbrack :: ts => match skipBrackets 1 ts with
    | some us => attrsP n us
    | none => none
  | n + 1, .op .hash :: .op .bang :: .op .lbrack :: ts => match skipBrackets 1 ts with
    | some us => attrsP n us
    | none => none
  | _, ts => some (([], false), ts)

/-- Skip tokens up to and including this one. -/
def skipTo (o : Op) : List Tok → Option (List Tok)
  | [] => none
  | t :: ts => match want o (t :: ts) with
    | some us => some us
    | none => skipTo o ts

/-- Skip to the closing parenthesis; the counter holds the open ones. -/
def skipParens : Nat → List Tok → Option (List Tok)
  | _, [] => none
  | d, .op .lparen :: ts => skipParens (d + 1) ts
  | 0, .op .rparen :: _ => none
  | 1, .op .rparen :: ts => some ts
  | d + 1, .op .rparen :: ts => skipParens d ts
  | d, _ :: ts => skipParens d ts

/-- Skip `&`, `mut` and lifetimes. -/
def skipRefs : List Tok → List Tok
  | .op .amp :: ts => skipRefs ts
  | .kw .mut :: ts => skipRefs ts
  | .life :: ts => skipRefs ts
  | ts => ts

/-! ## Types -/

/-- The type a name and its arguments stand for. -/
def namedTy (c : Ctx) (n : Option Nat) (args : List Ty) : Ty :=
  match n with
  | none => match c.selfTy with
    | some s => match ident s with
      | some .u16 => .u16
      | some .u32 => .u32
      | _ => .other
    | none => .other
  | some n => match ident n, args with
    | some .Option, t :: _ => .option t
    | some .Result, t :: _ => .result t
    | some i, _ => (intTy i).getD .other
    | none, _ => .other

/-- The arguments `<t, ..>` of a type, if any. -/
def tyArgs (r : Rules) (c : Ctx) (ts : List Tok) : Option (List Ty × List Tok) :=
  match ts with
  | .op .lt :: ts => do
    let (t, ts) ← r.ty c ts
    match ts with
    | .op .gt :: ts => some ([t], ts)
    | .op .comma :: ts => do
      let (u, ts) ← r.ty c ts
      let ts ← want .gt ts
      some ([t, u], ts)
    | _ => none
  | ts => some ([], ts)

/-- A type.  Of a path only the last name counts; `Self::x` is no type the trees tell apart. -/
def tyP (r : Rules) (c : Ctx) (ts : List Tok) : Option (Ty × List Tok) :=
  match skipRefs ts with
  | .op .lbrack :: ts => do
    let (t, ts) ← r.ty c ts
    let ts ← want .rbrack ts
    some (.array t, ts)
  | .kw .Self :: .op .colon2 :: .name _ :: ts => some (.other, ts)
  | .kw .Self :: ts => some (namedTy c none [], ts)
  | .kw .std :: .op .colon2 :: .kw .panic :: .op .colon2 :: .kw .Location :: ts => some (.other, ts)
  | .name _ :: .op .colon2 :: ts => r.ty c ts
  | .name n :: ts => do
    let (as, ts) ← tyArgs r c ts
    some (namedTy c (some n) as, ts)
  | _ => none

/-! ## Paths and patterns -/

/-- More names after `::`. -/
def segsP (r : Rules) (ts : List Tok) : Option (List Nat × List Tok) :=
  match ts with
  | .op .colon2 :: .name c :: ts => do
    let (cs, ts) ← r.segs ts
    some (c :: cs, ts)
  | .op .colon2 :: .kw .from :: ts => some ([spell [102, 114, 111, 109] 0], ts)
  | ts => some ([], ts)

/-- A path. -/
def path (r : Rules) (c : Ctx) (ts : List Tok) : Option ((Nat × List Nat) × List Tok) :=
  match ts with
  | .name n :: ts => do
    let (cs, ts) ← r.segs ts
    some ((n, cs), ts)
  | .kw .Self :: ts => do
    let n ← c.selfTy
    let (cs, ts) ← r.segs ts
    some ((n, cs), ts)
  | _ => none

/-- The type `Ok`, `Err`, `Some` and `None` belong to. -/
def preludeTy : Id → Option Id
  | .Ok => some .Result | .Err => some .Result | .Some => some .Option | .None => some .Option | _ => none

/-- A pattern without alternatives. -/
def pat1 (r : Rules) (c : Ctx) (ts : List Tok) : Option (Pat × List Tok) :=
  match ts with
  | .num n _ :: .op .dotDotEq :: .num m _ :: ts => some (.range n m, ts)
  | .num n _ :: ts => some (.lit n, ts)
  | .name 95 :: ts => some (.wild, ts)
  | ts => do
    let ((n, cs), ts) ← path r c ts
    let i ← ident n
    match cs, preludeTy i with
    | [], none => some (.var i, ts)
    | [], some t => ctorP t i ts
    | [m], _ => do
      let j ← ident m
      ctorP i j ts
    | _, _ => none
where
  /-- The argument of a variant, if any. -/
  ctorP (t v : Id) (ts : List Tok) : Option (Pat × List Tok) :=
    match ts with
    | .op .lparen :: ts => do
      let (p, ts) ← r.pat c ts
      let (_, ts) := eat .comma ts
      let ts ← want .rparen ts
      some (.ctor1 t v p, ts)
    | ts => some (.ctor t v, ts)

/-- A pattern. -/
def patP (r : Rules) (c : Ctx) (ts : List Tok) : Option (Pat × List Tok) := do
  let (_, ts) := eat .bar ts
  let (p, ts) ← pat1 r c ts
  match ts with
  | .op .bar :: ts => do
    let (q, ts) ← r.pat c ts
    some (.or p q, ts)
  | ts => some (p, ts)

/-! ## Format strings -/

/-- A part of a format string: text, or the inside of `{..}`. -/
inductive Seg where
  | text (s : List Nat)
  | hole (s : List Nat)

/-- Cut a format string at its braces (123 and 125); the first argument holds the text read so far,
reversed, and the second tells whether it is inside braces. -/
def cut : List Nat → Bool → List Nat → Option (List Seg)
  | [], false, [] => some []
  | acc, false, [] => some [.text acc.reverse]
  | _, true, [] => none
  | acc, inside, c :: cs => match Nat.beq c 123, Nat.beq c 125, inside with
    | true, _, true => none
    | true, _, false => match acc with
      | [] => cut [] true cs
      | _ => match cut [] true cs with
        | some ss => some (.text acc.reverse :: ss)
        | none => none
    | _, true, false => none
    | _, true, true => match cut [] false cs with
      | some ss => some (.hole acc.reverse :: ss)
      | none => none
    | false, false, b => cut (c :: acc) b cs

/-- The name and the format of the inside of `{..}`, cut at the colon (58). -/
def hole : List Nat → List Nat × List Nat
  | [] => ([], [])
  | c :: cs => match Nat.beq c 58 with
    | true => ([], cs)
    | false => (c :: (hole cs).1, (hole cs).2)

/-- The formats: nothing, `x` and `#x`. -/
def holeSpec : List Nat → Option Spec
  | [] => some .display
  | [120] => some .lowerHex
  | [35, 120] => some .altLowerHex
  | _ => none

/-- Give the parts of a format string their arguments. -/
def pieces : List Seg → List Expr → Option Pieces
  | [], [] => some .nil
  | [], _ :: _ => none
  | .text s :: ss, es => do
    let ps ← pieces ss es
    some (.text (String.ofList (s.map Char.ofNat)) ps)
  | .hole h :: ss, es => do
    let sp ← holeSpec (hole h).2
    match (hole h).1, es with
    | [], e :: es => do
      let ps ← pieces ss es
      some (.arg sp e ps)
    | [], [] => none
    | n, es => do
      let i ← ident (spell n 0)
      let ps ← pieces ss es
      some (.arg sp (.var i) ps)

/-! ## Expressions -/

/-- The binary operators and their binding strength, weakest first. -/
def infixOp : Op → Option (Nat × BinOp)
  | .eqEq => some (0, .eq) | .ge => some (0, .ge)
  | .bar => some (1, .or)
  | .amp => some (2, .and)
  | .shr => some (3, .shr) | .shl => some (3, .shl)
  | .plus => some (4, .add) | .minus => some (4, .sub)
  | _ => none

/-- An expression of at least binding strength `l`; `return e` binds weakest. -/
def exprP (r : Rules) (c : Ctx) (l : Nat) (ts : List Tok) : Option (Expr × List Tok) :=
  match l, ts with
  | 0, .kw .return :: ts => do
    let (e, ts) ← r.expr c 0 ts
    some (.ret e, ts)
  | 5, ts => do
    let (e, ts) ← r.unary c ts
    r.cast c e ts
  | l, ts => do
    let (e, ts) ← r.expr c (l + 1) ts
    r.bin c l e ts

/-- More operators of binding strength `l`, taken from the left. -/
def binP (r : Rules) (c : Ctx) (l : Nat) (a : Expr) (ts : List Tok) : Option (Expr × List Tok) :=
  match ts with
  | .op o :: us => match infixOp o with
    | some (m, b) => match Nat.beq l m with
      | true => do
        let (e, us) ← r.expr c (l + 1) us
        r.bin c l (.bin b a e) us
      | false => some (a, ts)
    | none => some (a, ts)
  | _ => some (a, ts)

/-- Casts. -/
def castP (r : Rules) (c : Ctx) (e : Expr) (ts : List Tok) : Option (Expr × List Tok) :=
  match ts with
  | .kw .as :: ts => do
    let (t, ts) ← r.ty c ts
    r.cast c (.cast e t) ts
  | ts => some (e, ts)

/-- Arguments as a tree. -/
def exprs : List Expr → Exprs
  | [] => .nil
  | e :: es => .cons e (exprs es)

/-- What follows an expression. -/
def postP (r : Rules) (c : Ctx) (e : Expr) (ts : List Tok) : Option (Expr × List Tok) :=
  match ts with
  | .op .quest :: ts => r.post c (.question e) ts
  | .op .dot :: .kw .unwrap :: .op .lparen :: .op .rparen :: ts => r.post c (.unwrap e) ts
  | .op .dot :: .kw .expect :: .op .lparen :: .str _ :: .op .rparen :: ts => r.post c (.unwrap e) ts
  | .op .dot :: .kw .unwrap_or_else :: .op .lparen :: .op .bar :: .name x :: .op .bar :: ts => do
    let x ← ident x
    let (b, ts) ← r.expr { c with structOk := true } 0 ts
    let ts ← want .rparen ts
    r.post c (.orElse e x b) ts
  | .op .dot :: .kw .into :: .op .lparen :: .op .rparen :: ts => r.post c (.into e) ts
  | .op .dot :: .kw .pow :: .op .lparen :: ts => do
    let (as, ts) ← r.args { c with structOk := true } .rparen ts
    match as with
    | [a] => r.post c (.pow e a) ts
    | _ => none
  | .op .dot :: .name n :: .op .lparen :: ts => do
    let i ← ident n
    let (as, ts) ← r.args { c with structOk := true } .rparen ts
    r.post c (.method e i (exprs as)) ts
  | .op .dot :: .name n :: ts => do
    let i ← ident n
    r.post c (.field e i) ts
  | ts => some (e, ts)

/-- Expressions separated by commas, up to a closing token. -/
def argsP (r : Rules) (c : Ctx) (close : Op) (ts : List Tok) : Option (List Expr × List Tok) :=
  match want close ts with
  | some ts => some ([], ts)
  | none => do
    let (e, ts) ← r.expr c 0 ts
    match ts with
    | .op .comma :: ts => do
      let (es, ts) ← r.args c close ts
      some (e :: es, ts)
    | ts => do
      let ts ← want close ts
      some ([e], ts)

/-- A block that is just an expression is that expression. -/
def blockOf : Stmts → Expr
  | .done e => e
  | ss => .block ss

/-- `{ .. }`. -/
def blockP (r : Rules) (c : Ctx) (ts : List Tok) : Option (Expr × List Tok) := do
  let ts ← want .lbrace ts
  let (ss, ts) ← r.stmts { c with structOk := true } ts
  some (blockOf ss, ts)

/-- The fields of a struct expression, up to its closing brace. -/
def fieldsP (r : Rules) (c : Ctx) (ts : List Tok) : Option (Fields × List Tok) :=
  match ts with
  | .op .rbrace :: ts => some (.nil, ts)
  | ts => do
    let (x, ts) ← identP ts
    let ts ← want .colon ts
    let (e, ts) ← r.expr { c with structOk := true } 0 ts
    let ts ← sep .rbrace ts
    let (fs, ts) ← r.fields c ts
    some (.cons x e fs, ts)

/-- `decode`, `instruction`, `inst_32` and `inst_16`, the modules whose functions the others import. -/
def imported : List Nat :=
  [spell [100, 101, 99, 111, 100, 101] 0, spell [105, 110, 115, 116, 114, 117, 99, 116, 105, 111, 110] 0,
   spell [105, 110, 115, 116, 95, 51, 50] 0, spell [105, 110, 115, 116, 95, 49, 54] 0]

/-- Is `o::f` a function of the crate? -/
def Ctx.has (c : Ctx) (o f : Nat) : Bool := c.fns.any fun p => (Nat.beq p.1 o).and (Nat.beq p.2 f)

/-- The owner of a function called by its name alone: the type or module of the caller, its file, or a
module it imports from. -/
def Ctx.ownerOf (c : Ctx) (f : Nat) : Option Nat := (c.owner :: c.mod :: imported).find? (c.has · f)

/-- The module or type spelled by the names before the last, and the last. -/
def qualified : Nat → List Nat → Nat × Nat
  | a, [] => (0, a)
  | a, [f] => (a, f)
  | a, b :: cs => qualified (joinName a b) cs

/-- A call. -/
def callOf (c : Ctx) (n : Nat) (cs : List Nat) (as : List Expr) : Option Expr :=
  match cs with
  | [] => match c.closures.any (Nat.beq n), as with
    | true, [] => do
      let i ← ident n
      some (.callClosure i)
    | true, as => do
      let o ← ident c.owner
      let f ← ident n
      some (.call o f (exprs as))
    | false, as => match ident n, as with
      | some .Ok, [e] => some (.variantOf .Result .Ok e)
      | some .Err, [e] => some (.variantOf .Result .Err e)
      | some .Some, [e] => some (.variantOf .Option .Some e)
      | some f, as => do
        let o ← c.ownerOf n
        let o ← ident o
        some (.call o f (exprs as))
      | none, _ => none
  | [m] => match c.enums.any (Nat.beq n), as with
    | true, [e] => do
      let t ← ident n
      let v ← ident m
      some (.variantOf t v e)
    | _, _ => match (ident n).bind intTy, as with
      | some t, [e] => match Nat.beq m (spell [102, 114, 111, 109] 0), ident m with
        | true, _ => some (.from_ t e)
        | false, some .try_from => some (.tryFrom t e)
        | _, _ => none
      | _, as => owned n [m] as
  | cs => owned n cs as
where
  /-- A function named with its module or type. -/
  owned (n : Nat) (cs : List Nat) (as : List Expr) : Option Expr :=
    match c.has (qualified n cs).1 (qualified n cs).2 with
    | true => do
      let o ← ident (qualified n cs).1
      let f ← ident (qualified n cs).2
      some (.call o f (exprs as))
    | false => none

/-- A path as an expression. -/
def pathExpr (r : Rules) (c : Ctx) (n : Nat) (cs : List Nat) (ts : List Tok) : Option (Expr × List Tok) :=
  match ts with
  | .op .lparen :: ts => do
    let (as, ts) ← r.args { c with structOk := true } .rparen ts
    let e ← callOf c n cs as
    some (e, ts)
  | ts => do
    let i ← ident n
    match cs, ts, c.structOk with
    | [], .op .lbrace :: ts, true => do
      let (fs, ts) ← r.fields c ts
      some (.struct i fs, ts)
    | [], ts, _ => match i with
      | .None => some (.variant .Option .None, ts)
      | i => some (.var i, ts)
    | [m], ts, _ => do
      let j ← ident m
      some (.variant i j, ts)
    | _, _, _ => none

/-- An operand. -/
def primary (r : Rules) (c : Ctx) (ts : List Tok) : Option (Expr × List Tok) :=
  match ts with
  | .num n none :: ts => some (.lit n, ts)
  | .num n (some t) :: ts => some (.litT n t, ts)
  | .str s :: ts => some (.str (String.ofList (s.map Char.ofNat)), ts)
  | .op .lparen :: ts => do
    let (e, ts) ← r.expr { c with structOk := true } 0 ts
    let ts ← want .rparen ts
    some (e, ts)
  | .op .lbrack :: ts => do
    let (es, ts) ← r.args { c with structOk := true } .rbrack ts
    some (.array (exprs es), ts)
  | .op .lbrace :: _ => blockP r c ts
  | .kw .if :: ts => do
    let (b, ts) ← r.expr { c with structOk := false } 0 ts
    let (e, ts) ← blockP r c ts
    match ts with
    | .kw .else :: ts => do
      let (f, ts) ← blockP r c ts
      some (.ite b e f, ts)
    | ts => some (.ite b e .unit, ts)
  | .kw .match :: ts => do
    let (e, ts) ← r.expr { c with structOk := false } 0 ts
    let ts ← want .lbrace ts
    let (as, ts) ← r.arms c ts
    some (.match_ e as, ts)
  | .kw .true :: ts => some (.bool true, ts)
  | .kw .false :: ts => some (.bool false, ts)
  | .kw .unreachable :: .op .bang :: .op .lparen :: ts => do
    let ts ← skipParens 1 ts
    some (.unreachable, ts)
  | .kw .panic :: .op .bang :: .op .lparen :: ts => do
    let ts ← skipParens 1 ts
    some (.unreachable, ts)
  | .kw .matches :: .op .bang :: .op .lparen :: ts => do
    let (e, ts) ← r.expr { c with structOk := true } 0 ts
    let ts ← want .comma ts
    let (p, ts) ← r.pat c ts
    let ts ← want .rparen ts
    some (.matches_ e p, ts)
  | .kw .std :: .op .colon2 :: .kw .panic :: .op .colon2 :: .kw .Location :: .op .colon2 :: .kw .caller ::
      .op .lparen :: .op .rparen :: ts => some (.unit, ts)
  | .kw .write :: .op .bang :: .op .lparen :: .kw .f :: .op .comma :: .str s :: ts => do
    let ts ← sep .rparen ts
    let (es, ts) ← r.args { c with structOk := true } .rparen ts
    let ss ← cut [] false s
    let ps ← pieces ss es
    some (.write ps, ts)
  | ts => do
    let ((n, cs), ts) ← path r c ts
    pathExpr r c n cs ts

/-- Does an expression that starts like this end at the brace that closes it? -/
def blockFirst : List Tok → Bool
  | .op .lbrace :: _ => true
  | .kw .if :: _ => true
  | .kw .match :: _ => true
  | _ => false

/-- What follows `=>` in an arm; after a block the comma may be left out. -/
def armP (r : Rules) (c : Ctx) (ts : List Tok) : Option (Expr × List Tok) :=
  match blockFirst ts with
  | true => do
    let (e, ts) ← primary r { c with structOk := true } ts
    let (_, ts) := eat .comma ts
    some (e, ts)
  | false => do
    let (e, ts) ← r.expr { c with structOk := true } 0 ts
    let ts ← sep .rbrace ts
    some (e, ts)

/-- The arms of a `match`, up to its closing brace. -/
def armsP (r : Rules) (c : Ctx) (ts : List Tok) : Option (Arms × List Tok) :=
  match ts with
  | .op .rbrace :: ts => some (.nil, ts)
  | ts => do
    let (p, ts) ← r.pat c ts
    let ts ← want .fatArrow ts
    let (e, ts) ← armP r c ts
    let (as, ts) ← r.arms c ts
    some (.cons p e as, ts)

/-- Operands with an operator in front; `&e` and `*e` read as `e`. -/
def unaryP (r : Rules) (c : Ctx) (ts : List Tok) : Option (Expr × List Tok) :=
  match ts with
  | .op .amp :: ts => r.unary c ts
  | .op .star :: ts => r.unary c ts
  | .op .minus :: ts => do
    let (e, ts) ← r.unary c ts
    some (.neg e, ts)
  | ts => do
    let (e, ts) ← primary r c ts
    r.post c e ts

/-! ## Statements -/

/-- The type after a colon, if any. -/
def annot (r : Rules) (c : Ctx) (ts : List Tok) : Option (Ty × List Tok) :=
  match ts with
  | .op .colon :: ts => r.ty c ts
  | ts => some (.other, ts)

/-- The parameters of a closure, up to the closing bar. -/
def closureParams (r : Rules) (c : Ctx) : Nat → P (List (Id × Ty))
  | _, .op .bar :: ts => some ([], ts)
  | n + 1, .name x :: .op .colon :: ts => do
    let x ← ident x
    let (t, ts) ← r.ty c ts
    let ts ← sep .bar ts
    let (ps, ts) ← closureParams r c n ts
    some ((x, t) :: ps, ts)
  | _, _ => none

/-- The two sides of `assert_eq!` or `assert_ne!`, up to the semicolon. -/
def sidesP (r : Rules) (c : Ctx) (ts : List Tok) : Option ((Expr × Expr) × List Tok) := do
  let (a, ts) ← r.expr { c with structOk := true } 0 ts
  let ts ← want .comma ts
  let (b, ts) ← r.expr { c with structOk := true } 0 ts
  let ts ← match ts with
    | .op .comma :: ts => skipParens 1 ts
    | ts => want .rparen ts
  let ts ← want .semi ts
  some ((a, b), ts)

/-- Statements, the first without attributes, up to the closing brace of their block. -/
def bareP (r : Rules) (c : Ctx) (ts : List Tok) : Option (Stmts × List Tok) :=
  match ts with
  | .op .rbrace :: ts => some (.done .unit, ts)
  | .kw .use :: ts => do
    let ts ← skipTo .semi ts
    r.stmts c ts
  | .kw .let :: ts =>
    match skipRefs ts with
    | .name n :: .op .eq :: .op .bar :: ts => do
      let x ← ident n
      let o ← ident c.owner
      let (ps, ts) ← closureParams r c ts.length ts
      let (b, ts) ← r.expr c 0 ts
      let ts ← want .semi ts
      let (ss, ts) ← r.stmts { c with closures := n :: c.closures } ts
      some (.letFn o x ps b ss, ts)
    | .name n :: .op .eq :: .op .bars :: ts => do
      let x ← ident n
      let (e, ts) ← r.expr c 0 ts
      let ts ← want .semi ts
      let (ss, ts) ← r.stmts { c with closures := n :: c.closures } ts
      some (.letClosure x e ss, ts)
    | ts => do
      let (x, ts) ← identP ts
      let (t, ts) ← annot r c ts
      let ts ← want .eq ts
      let (e, ts) ← r.expr c 0 ts
      let ts ← want .semi ts
      let (ss, ts) ← r.stmts c ts
      some (.let_ x t e ss, ts)
  | .kw .assert :: .op .bang :: .op .lparen :: ts => do
    let (e, ts) ← r.expr c 0 ts
    let ts ← want .rparen ts
    let ts ← want .semi ts
    let (ss, ts) ← r.stmts c ts
    some (.assert e ss, ts)
  | .kw .assert_eq :: .op .bang :: .op .lparen :: ts => do
    let ((a, b), ts) ← sidesP r c ts
    let (ss, ts) ← r.stmts c ts
    some (.assertEq true a b ss, ts)
  | .kw .assert_ne :: .op .bang :: .op .lparen :: ts => do
    let ((a, b), ts) ← sidesP r c ts
    let (ss, ts) ← r.stmts c ts
    some (.assertEq false a b ss, ts)
  | .kw .for :: .op .lparen :: .name i :: .op .comma :: .name m :: .op .rparen :: .kw .in :: .name v ::
      .op .dot :: .kw .iter :: .op .lparen :: .op .rparen ::
      .op .dot :: .kw .rev :: .op .lparen :: .op .rparen ::
      .op .dot :: .kw .enumerate :: .op .lparen :: .op .rparen ::
      .op .lbrace :: .name x :: .op .orEq :: ts => do
    let i ← ident i
    let m ← ident m
    let v ← ident v
    let x ← ident x
    let (b, ts) ← r.expr c 0 ts
    let ts ← want .semi ts
    let ts ← want .rbrace ts
    let (ss, ts) ← r.stmts c ts
    some (.forRevEnum i m (.var v) x b ss, ts)
  | ts => match blockFirst ts with
    | true => do
      let (e, ts) ← primary r c ts
      match ts with
      | .op .rbrace :: ts => some (.done e, ts)
      | .op .semi :: ts => do
        let (ss, ts) ← r.stmts c ts
        some (.expr e ss, ts)
      | ts => do
        let (ss, ts) ← r.stmts c ts
        some (.expr e ss, ts)
    | false => do
      let (e, ts) ← r.expr c 0 ts
      match ts with
      | .op .rbrace :: ts => some (.done e, ts)
      | .op .semi :: ts => do
        let (ss, ts) ← r.stmts c ts
        some (.expr e ss, ts)
      | _ => none

/-- Statements, up to the closing brace of their block. -/
def stmtsP (r : Rules) (c : Ctx) (ts : List Tok) : Option (Stmts × List Tok) := do
  let ts ← skipAttrs 0 ts
  bareP r c ts

/-! ## The knot -/

/-- The rules, each allowed to nest others `n` deep. -/
def rules : Nat → Rules
  | 0 => ⟨fun _ _ _ => none, fun _ _ _ _ => none, fun _ _ _ => none, fun _ _ => none, fun _ _ _ => none,
      fun _ _ _ => none, fun _ _ => none, fun _ _ => none, fun _ _ => none, fun _ _ => none, fun _ _ => none,
      fun _ => none⟩
  | n + 1 =>
    let r := rules n
    ⟨exprP r, binP r, castP r, unaryP r, postP r, argsP r, armsP r, fieldsP r, stmtsP r, patP r, tyP r, segsP r⟩

/-! ## Items -/

/-- What a file or a part of it declares. -/
structure Decls where
  fns : List (Nat × Nat × Fn)
  /-- methods with a body in a trait: the trait, the method -/
  defaults : List (Nat × Nat × Fn)
  /-- `impl trait for type` -/
  impls : List (Nat × Nat)
  types : List (Nat × TypeDecl)

/-- Skip to the end of a block; the counter holds the open braces. -/
def skipBraces : Nat → List Tok → Option (List Tok)
  | _, [] => none
  | d, .op .lbrace :: ts => skipBraces (d + 1) ts
  | 0, .op .rbrace :: _ => none
  | 1, .op .rbrace :: ts => some ts
  | d + 1, .op .rbrace :: ts => skipBraces d ts
  | d, _ :: ts => skipBraces d ts

/-- The variants of an enumeration. -/
def variantsP : Nat → List Tok → Option (List (Id × Option Id) × List Tok)
  | 0, _ => none
  | n + 1, ts => match want .rbrace ts with
  | some ts => some ([], ts)
  | none => do
    let ts ← skipAttrs 0 ts
    match ts with
    | .name v :: .op .lparen :: .name t :: .op .rparen :: ts => do
      let v ← ident v
      let t ← ident t
      let ts ← sep .rbrace ts
      let (vs, ts) ← variantsP n ts
      some ((v, some t) :: vs, ts)
    | .name v :: ts => do
      let v ← ident v
      let ts ← sep .rbrace ts
      let (vs, ts) ← variantsP n ts
      some ((v, none) :: vs, ts)
    | _ => none

/-- The fields of a structure. -/
def membersP (c : Ctx) : Nat → List Tok → Option (List (Id × Ty) × List Tok)
  | 0, _ => none
  | n + 1, ts => match want .rbrace ts with
  | some ts => some ([], ts)
  | none => do
    let ts ← skipAttrs 0 ts
    match ts with
    | .kw .pub :: .name x :: .op .colon :: ts => do
      let x ← ident x
      let (t, ts) ← (rules n).ty c ts
      let ts ← sep .rbrace ts
      let (xs, ts) ← membersP c n ts
      some ((x, t) :: xs, ts)
    | _ => none

/-- Parameters, up to the closing parenthesis.  The formatter `f` is left out. -/
def paramsP (c : Ctx) : Nat → List Tok → Option (List (Id × Ty) × List Tok)
  | 0, _ => none
  | n + 1, ts => match want .rparen ts, skipRefs ts with
    | some ts, _ => some ([], ts)
    | none, .kw .f :: .op .colon :: ts => do
      let (_, ts) ← (rules n).ty c ts
      let ts ← sep .rparen ts
      paramsP c n ts
    | none, .name x :: .op .colon :: ts => do
      let x ← ident x
      let (t, ts) ← (rules n).ty c ts
      let ts ← sep .rparen ts
      let (ps, ts) ← paramsP c n ts
      some ((x, t) :: ps, ts)
    | none, .name x :: ts => match ident x with
      | some .self => do
        let ts ← sep .rparen ts
        let (ps, ts) ← paramsP c n ts
        some ((.self, namedTy c none []) :: ps, ts)
      | _ => none
    | _, _ => none

/-- Type parameters are skipped. -/
def generics : List Tok → Option (List Tok)
  | .op .lt :: ts => skipTo .gt ts
  | ts => some ts

/-- The return type, if any. -/
def retP (n : Nat) (c : Ctx) : P Ty
  | .op .arrow :: ts => (rules n).ty c ts
  | ts => some (.other, ts)

/-- A function, from its name on, given how to read its body.  Without a body it declares nothing. -/
def fnP (body : Ctx → P Expr) (n : Nat) (c : Ctx) : P (Option (Nat × Fn))
  | .name f :: ts => do
    let name ← ident f
    let ts ← generics ts
    let ts ← want .lparen ts
    let (ps, ts) ← paramsP c n ts
    let (t, ts) ← retP n c ts
    match ts with
    | .op .semi :: ts => some (none, ts)
    | ts => do
      let (e, ts) ← body c ts
      let owner := (ident c.owner).getD name
      some (some (f, ⟨owner, name, ps, t, e⟩), ts)
  | _ => none

/-- `pub` is skipped. -/
def skipPub : List Tok → List Tok
  | .kw .pub :: ts => ts
  | ts => ts

/-- The words that items start with. -/
def itemKw : Kw → Bool
  | .use | .type | .mod | .enum | .struct | .trait | .impl | .fn => true
  | _ => false

/-- Skip an item up to the end of its block. -/
def skipItem : List Tok → Option (List Tok)
  | .kw k :: ts => match itemKw k with
    | true => (skipTo .lbrace ts).bind (skipBraces 1)
    | false => none
  | _ => none

/-- An item, given how to read its body and the items inside it.  `inTrait` holds the trait it belongs to. -/
def itemP (body : Ctx → P Expr) (items : Ctx → Option Nat → Decls → P Decls) (n : Nat) (c : Ctx)
    (inTrait : Option Nat) (ds : List Derive) (d : Decls) : P Decls
  | .kw .use :: ts => do
    let ts ← skipTo .semi ts
    some (d, ts)
  | .kw .type :: ts => do
    let ts ← skipTo .semi ts
    some (d, ts)
  | .kw .mod :: .name _ :: .op .semi :: ts => some (d, ts)
  | .kw .mod :: .name m :: .op .lbrace :: ts => do
    let (d, ts) ← items { c with owner := joinName c.mod m, selfTy := none } none d ts
    let ts ← want .rbrace ts
    some (d, ts)
  | .kw .enum :: .name e :: .op .lbrace :: ts => do
    let name ← ident e
    let (vs, ts) ← variantsP n ts
    some ({ d with types := d.types ++ [(e, ⟨name, ds, .enum vs⟩)] }, ts)
  | .kw .struct :: .name s :: .op .lbrace :: ts => do
    let name ← ident s
    let (fs, ts) ← membersP c n ts
    some ({ d with types := d.types ++ [(s, ⟨name, ds, .struct fs⟩)] }, ts)
  | .kw .trait :: .name t :: .op .lbrace :: ts => do
    let (d, ts) ← items { c with owner := t, selfTy := none } (some t) d ts
    let ts ← want .rbrace ts
    some (d, ts)
  | .kw .impl :: .name a :: ts => do
    let ts ← generics ts
    match ts with
    | .kw .for :: .name t :: .op .lbrace :: ts => do
      let (d, ts) ← items { c with owner := t, selfTy := some t } none { d with impls := d.impls ++ [(a, t)] } ts
      let ts ← want .rbrace ts
      some (d, ts)
    | .op .lbrace :: ts => do
      let (d, ts) ← items { c with owner := a, selfTy := some a } none d ts
      let ts ← want .rbrace ts
      some (d, ts)
    | _ => none
  | .kw .fn :: ts => do
    let (f, ts) ← fnP body n c ts
    match f, inTrait with
    | none, _ => some (d, ts)
    | some (f, fn), none => some ({ d with fns := d.fns ++ [(c.owner, f, fn)] }, ts)
    | some (f, fn), some t => some ({ d with defaults := d.defaults ++ [(t, f, fn)] }, ts)
  | _ => none

/-- Items up to a closing brace or the end of the file. -/
def itemsP (body : Nat → Ctx → P Expr) : Nat → Ctx → Option Nat → Decls → P Decls
  | 0, _, _, _, _ => none
  | n + 1, c, inTrait, d, ts => match ts with
  | [] => some (d, [])
  | .op .rbrace :: _ => some (d, ts)
  | ts => do
    let ((ds, t), ts) ← attrsP n ts
    match t && !c.test with
    | true => do
      let ts ← skipItem (skipPub ts)
      itemsP body n c inTrait d ts
    | false => do
      let (d, ts) ← itemP (body n) (itemsP body n) n c inTrait ds d (skipPub ts)
      itemsP body n c inTrait d ts

/-- Do not read a body, only find its end. -/
def skipBody (_ : Nat) (_ : Ctx) (ts : List Tok) : Option (Expr × List Tok) := do
  let ts ← want .lbrace ts
  let ts ← skipBraces 1 ts
  some (.unit, ts)

/-- Read a body. -/
def readBody (n : Nat) (c : Ctx) (ts : List Tok) : Option (Expr × List Tok) := blockP (rules n) c ts

/-- A file with the name of its module. -/
def fileP (body : Nat → Ctx → P Expr) (n : Nat) (c : Ctx) (m : Nat) (ts : List Tok) : Option Decls := do
  let (d, ts) ← itemsP body n { c with mod := m, owner := m } none ⟨[], [], [], []⟩ ts
  match ts with
  | [] => some d
  | _ => none

/-- Read a list of files. -/
def filesP (body : Nat → Ctx → P Expr) (n : Nat) (c : Ctx) : List (Nat × List Tok) → Option (List Decls)
  | [] => some []
  | (m, ts) :: fs => do
    let d ← fileP body n c m ts
    let ds ← filesP body n c fs
    some (d :: ds)

/-- The context of a file before anything is known about the crate. -/
def Ctx.empty (test : Bool) : Ctx := ⟨0, 0, none, [], [], [], true, test⟩

/-- The context that knows the enumerations and the functions of the crate. -/
def known (test : Bool) (ds : List Decls) : Ctx :=
  { Ctx.empty test with
    enums := ds.flatMap fun d => d.types.filterMap fun
      | (n, ⟨_, _, .enum _⟩) => some n
      | _ => none
    fns := ds.flatMap fun d => d.fns.map fun f => (f.1, f.2.1) }

/-- A default method belongs to every type that implements its trait without defining it. -/
def inherited (ds : List Decls) : List Fn :=
  (ds.flatMap (·.defaults)).flatMap fun (t, f, fn) =>
    (ds.flatMap (·.impls)).filterMap fun (u, a) =>
      match Nat.beq t u, (ds.flatMap (·.fns)).any fun g => (Nat.beq g.1 a).and (Nat.beq g.2.1 f), ident a with
      | true, false, some o => some { fn with owner := o }
      | _, _, _ => none

/-- What a crate declares: its types and its functions. -/
structure Crate where
  types : List TypeDecl
  fns : List Fn

/-- What the declarations of its files make of a crate. -/
def joined (ds : List Decls) : Crate :=
  ⟨ds.flatMap fun d => d.types.map (·.2), (ds.flatMap fun d => d.fns.map (·.2.2)) ++ inherited ds⟩

/-- A crate given by the tokens of its files, nesting at most `n` deep.  The first pass finds its enumerations and
functions, the second reads the bodies.  `test` tells whether the crate is compiled for its tests. -/
def crateN (n : Nat) (test : Bool) (fs : List (Nat × List Tok)) : Option Crate := do
  let ds ← filesP skipBody n (Ctx.empty test) fs
  let ds ← filesP readBody n (known test ds) fs
  some (joined ds)

/-- The same with a depth that is enough for this crate. -/
def crateP (test : Bool) (fs : List (Nat × List Tok)) : Option Crate := crateN 3000 test fs

/-- The tokens of each file. -/
def lexFiles : List (Nat × List (List Nat)) → Option (List (Nat × List Tok))
  | [] => some []
  | (m, ls) :: fs => do
    let ts ← lexLines ls
    let us ← lexFiles fs
    some ((m, ts) :: us)

/-- Read a crate from character codes. -/
def parseCodes (test : Bool) (fs : List (Nat × List (List Nat))) : Option Crate := do
  let us ← lexFiles fs
  crateP test us

/-- Read a crate from the lines of its files, for its tests or not. -/
def parse (test : Bool) (fs : List (String × List String)) : Option Crate :=
  parseCodes test (fs.map fun (m, ls) => (spell (codes m) 0, ls.map codes))

end Raki.Source
