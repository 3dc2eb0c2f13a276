import Verif.Source.Reading
import Verif.Source.Formats
/-!
# The grammar of the part of Rust the crate is written in

`Phrase k c us v` says that the tokens `us` form a phrase of kind `k` that stands for the tree `v`.  The rules are
those of the Rust reference for the part of the language that occurs in the crate's files; they say nothing about how
to read a text, in which order to try them or how far to look ahead.  `Verif.Props.Grammar` shows that the reader of
`Verif.Source.Parser` follows them.

Names have to be among those of the crate (`ident`).  What a call by name means (`callOf`) and what a type name means
to the evaluation (`namedTy`) is a matter of scope, not of grammar: these rules take it from the reader, and C87 is
about it.  The rules for format strings are in `Verif.Source.Formats`.
-/

set_option linter.constructorNameAsVariable false

namespace Raki.Source

/-- The kinds of phrases. -/
inductive Cat where
  /-- a type -/
  | ty
  /-- the arguments of a type, with their angle brackets -/
  | tyArgs
  /-- the names after the first of a path -/
  | segs
  | path
  /-- the name of a variant in a pattern -/
  | ctor
  /-- a pattern without alternatives -/
  | pat1
  | pat
  /-- expressions and the token that closes them -/
  | args (close : Op)
  /-- any expression -/
  | whole
  /-- an expression of at least this binding strength, and no `return` -/
  | expr (l : Nat)
  /-- operands with `&`, `*` or `-` in front -/
  | unary
  /-- operands with `?`, `.f(..)` or `.x` behind -/
  | post
  /-- operands -/
  | prim
  /-- `{ .. }` -/
  | block
  /-- the arms of a `match` and the brace that closes it -/
  | arms
  /-- the fields of a struct expression and the brace that closes it -/
  | fields
  /-- the parameters of a closure and the bar that closes them -/
  | params
  /-- the type of a `let`, with its colon, if it has one -/
  | annot
  /-- the two sides of an `assert_eq!`, with the rest of the statement -/
  | sides
  /-- statements and the brace that closes them -/
  | stmts
  /-- the same, the first without attributes -/
  | bare

/-- What phrases of a kind stand for. -/
abbrev Cat.Tree : Cat → Type
  | .ty => Ty
  | .tyArgs => List Ty
  | .segs => List Nat
  | .path => Nat × List Nat
  | .ctor => Id × Id
  | .pat1 | .pat => Pat
  | .args _ => List Expr
  | .whole | .expr _ | .unary | .post | .prim | .block => Expr
  | .arms => Arms
  | .fields => Fields
  | .params => List (Id × Ty)
  | .annot => Ty
  | .sides => Expr × Expr
  | .stmts | .bare => Stmts

/-- A comma, or nothing. -/
def OptComma (us : List Tok) : Prop := us = [] ∨ us = [.op .comma]

/-- `|`, or nothing. -/
def OptBar (us : List Tok) : Prop := us = [] ∨ us = [.op .bar]

/-- `&`, `mut` and lifetimes. -/
def Refs (us : List Tok) : Prop := ∀ t ∈ us, t = .op .amp ∨ t = .kw .mut ∨ t = .life

/-- Tokens of which the last closes the bracket that is `d` deep. -/
inductive Closes (l r : Op) : Nat → List Tok → Prop
  | done : Closes l r 0 []
  | enter {d ts} : Closes l r (d + 2) ts → Closes l r (d + 1) (.op l :: ts)
  | leave {d ts} : Closes l r d ts → Closes l r (d + 1) (.op r :: ts)
  | other {d t ts} : t ≠ .op l → t ≠ .op r → Closes l r (d + 1) ts → Closes l r (d + 1) (t :: ts)

/-- Attributes: `#[..]` and `#![..]`. -/
inductive Attributes : List Tok → Prop
  | nil : Attributes []
  | outer {us vs} : Closes .lbrack .rbrack 1 us → Attributes vs → Attributes (.op .hash :: .op .lbrack :: us ++ vs)
  | inner {us vs} : Closes .lbrack .rbrack 1 us → Attributes vs →
      Attributes (.op .hash :: .op .bang :: .op .lbrack :: us ++ vs)

/-- Blocks, `if` and `match` end an arm or a statement by themselves. -/
def Blocky (us : List Tok) : Prop :=
  ∃ vs, us = .op .lbrace :: vs ∨ us = .kw .if :: vs ∨ us = .kw .match :: vs

/-- Inside parentheses, brackets and braces `x {` starts a struct expression. -/
def Ctx.inside (c : Ctx) : Ctx := { c with structOk := true }

/-- Between `if` or `match` and its brace it does not. -/
def Ctx.head (c : Ctx) : Ctx := { c with structOk := false }

/-- `from`, as a name. -/
def fromName : Nat := spell [102, 114, 111, 109] 0

/-- The tokens form a phrase of this kind that stands for this tree. -/
inductive Phrase : (k : Cat) → Ctx → List Tok → k.Tree → Prop
  /- types -/
  | tyRef {c t us v} : t = .op .amp ∨ t = .kw .mut ∨ t = .life → Phrase .ty c us v → Phrase .ty c (t :: us) v
  | tyArray {c us t} : Phrase .ty c us t → Phrase .ty c (.op .lbrack :: us ++ [.op .rbrack]) (Ty.array t)
  | tySelfMember {c n} : Phrase .ty c [.kw .Self, .op .colon2, .name n] Ty.other
  | tySelf {c} : Phrase .ty c [.kw .Self] (namedTy c none [])
  | tyLocation {c} : Phrase .ty c [.kw .std, .op .colon2, .kw .panic, .op .colon2, .kw .Location] Ty.other
  | tyPath {c n us t} : Phrase .ty c us t → Phrase .ty c (.name n :: .op .colon2 :: us) t
  | tyName {c n us ts} : Phrase .tyArgs c us ts → Phrase .ty c (.name n :: us) (namedTy c (some n) ts)
  | tyArgs0 {c} : Phrase .tyArgs c [] []
  | tyArgs1 {c us t} : Phrase .ty c us t → Phrase .tyArgs c (.op .lt :: us ++ [.op .gt]) [t]
  | tyArgs2 {c us vs t u} : Phrase .ty c us t → Phrase .ty c vs u →
      Phrase .tyArgs c (.op .lt :: us ++ .op .comma :: vs ++ [.op .gt]) [t, u]
  /- paths -/
  | segs0 {c} : Phrase .segs c [] []
  | segsMore {c n us ms} : Phrase .segs c us ms → Phrase .segs c (.op .colon2 :: .name n :: us) (n :: ms)
  | segsFrom {c} : Phrase .segs c [.op .colon2, .kw .from] [fromName]
  | path {c n us ms} : Phrase .segs c us ms → Phrase .path c (.name n :: us) (n, ms)
  | pathSelf {c n us ms} : c.selfTy = some n → Phrase .segs c us ms → Phrase .path c (.kw .Self :: us) (n, ms)
  /- patterns -/
  | ctorPrelude {c us n i t} : Phrase .path c us (n, []) → ident n = some i → preludeTy i = some t →
      Phrase .ctor c us (t, i)
  | ctor {c us n m i j} : Phrase .path c us (n, [m]) → ident n = some i → ident m = some j →
      Phrase .ctor c us (i, j)
  | patRange {c n s m t} : Phrase .pat1 c [.num n s, .op .dotDotEq, .num m t] (Pat.range n m)
  | patLit {c n s} : Phrase .pat1 c [.num n s] (Pat.lit n)
  | patWild {c} : Phrase .pat1 c [.name 95] Pat.wild
  | patVar {c us n i} : Phrase .path c us (n, []) → ident n = some i → preludeTy i = none →
      Phrase .pat1 c us (Pat.var i)
  | patCtor {c us t v} : Phrase .ctor c us (t, v) → Phrase .pat1 c us (Pat.ctor t v)
  | patCtor1 {c us vs ws t v p} : Phrase .ctor c us (t, v) → Phrase .pat c vs p → OptComma ws →
      Phrase .pat1 c (us ++ .op .lparen :: vs ++ ws ++ [.op .rparen]) (Pat.ctor1 t v p)
  | pat {c bs us p} : OptBar bs → Phrase .pat1 c us p → Phrase .pat c (bs ++ us) p
  | patOr {c bs us vs p q} : OptBar bs → Phrase .pat1 c us p → Phrase .pat c vs q →
      Phrase .pat c (bs ++ us ++ .op .bar :: vs) (Pat.or p q)
  /- expressions -/
  | return_ {c us e} : Phrase .whole c us e → Phrase .whole c (.kw .return :: us) (Expr.ret e)
  | whole {c us e} : Phrase (.expr 0) c us e → Phrase .whole c us e
  | up {c l us e} : l ≤ 4 → Phrase (.expr (l + 1)) c us e → Phrase (.expr l) c us e
  | bin {c us vs a b} (o : BinOp) : Phrase (.expr o.strength) c us a → Phrase (.expr (o.strength + 1)) c vs b →
      Phrase (.expr o.strength) c (us ++ .op o.op :: vs) (Expr.bin o a b)
  | cast {c us vs e t} : Phrase (.expr 5) c us e → Phrase .ty c vs t →
      Phrase (.expr 5) c (us ++ .kw .as :: vs) (Expr.cast e t)
  | unary {c us e} : Phrase .unary c us e → Phrase (.expr 5) c us e
  | ref {c us e} : Phrase .unary c us e → Phrase .unary c (.op .amp :: us) e
  | deref {c us e} : Phrase .unary c us e → Phrase .unary c (.op .star :: us) e
  | neg {c us e} : Phrase .unary c us e → Phrase .unary c (.op .minus :: us) (Expr.neg e)
  | post {c us e} : Phrase .post c us e → Phrase .unary c us e
  | question {c us e} : Phrase .post c us e → Phrase .post c (us ++ [.op .quest]) (Expr.question e)
  | unwrap {c us e} : Phrase .post c us e →
      Phrase .post c (us ++ [.op .dot, .kw .unwrap, .op .lparen, .op .rparen]) (Expr.unwrap e)
  | expect {c us e s} : Phrase .post c us e →
      Phrase .post c (us ++ [.op .dot, .kw .expect, .op .lparen, .str s, .op .rparen]) (Expr.unwrap e)
  | unwrapOrElse {c us vs e x i b} : Phrase .post c us e → ident x = some i → Phrase .whole c.inside vs b →
      Phrase .post c (us ++ [.op .dot, .kw .unwrap_or_else, .op .lparen, .op .bar, .name x, .op .bar] ++ vs ++
        [.op .rparen]) (Expr.orElse e i b)
  | into {c us e} : Phrase .post c us e →
      Phrase .post c (us ++ [.op .dot, .kw .into, .op .lparen, .op .rparen]) (Expr.into e)
  | pow {c us vs e a} : Phrase .post c us e → Phrase (.args .rparen) c.inside vs [a] →
      Phrase .post c (us ++ [.op .dot, .kw .pow, .op .lparen] ++ vs) (Expr.pow e a)
  | method {c us vs e f i as} : Phrase .post c us e → ident f = some i → Phrase (.args .rparen) c.inside vs as →
      Phrase .post c (us ++ [.op .dot, .name f, .op .lparen] ++ vs) (Expr.method e i (exprs as))
  | field {c us e x i} : Phrase .post c us e → ident x = some i →
      Phrase .post c (us ++ [.op .dot, .name x]) (Expr.field e i)
  | prim {c us e} : Phrase .prim c us e → Phrase .post c us e
  /- operands -/
  | num {c n} : Phrase .prim c [.num n none] (Expr.lit n)
  | numTyped {c n t} : Phrase .prim c [.num n (some t)] (Expr.litT n t)
  | str {c s} : Phrase .prim c [.str s] (Expr.str (String.ofList (s.map Char.ofNat)))
  | paren {c us e} : Phrase .whole c.inside us e → Phrase .prim c (.op .lparen :: us ++ [.op .rparen]) e
  | array {c us es} : Phrase (.args .rbrack) c.inside us es →
      Phrase .prim c (.op .lbrack :: us) (Expr.array (exprs es))
  | blockExpr {c us e} : Phrase .block c us e → Phrase .prim c us e
  | ifElse {c us vs ws b e f} : Phrase .whole c.head us b → Phrase .block c vs e → Phrase .block c ws f →
      Phrase .prim c (.kw .if :: us ++ vs ++ .kw .else :: ws) (Expr.ite b e f)
  | ifThen {c us vs b e} : Phrase .whole c.head us b → Phrase .block c vs e →
      Phrase .prim c (.kw .if :: us ++ vs) (Expr.ite b e .unit)
  | match_ {c us vs e as} : Phrase .whole c.head us e → Phrase .arms c vs as →
      Phrase .prim c (.kw .match :: us ++ .op .lbrace :: vs) (Expr.match_ e as)
  | true_ {c} : Phrase .prim c [.kw .true] (Expr.bool true)
  | false_ {c} : Phrase .prim c [.kw .false] (Expr.bool false)
  | unreachable {c us} : Closes .lparen .rparen 1 us →
      Phrase .prim c (.kw .unreachable :: .op .bang :: .op .lparen :: us) Expr.unreachable
  | panic {c us} : Closes .lparen .rparen 1 us →
      Phrase .prim c (.kw .panic :: .op .bang :: .op .lparen :: us) Expr.unreachable
  | matches_ {c us vs e p} : Phrase .whole c.inside us e → Phrase .pat c vs p →
      Phrase .prim c (.kw .matches :: .op .bang :: .op .lparen :: us ++ .op .comma :: vs ++ [.op .rparen])
        (Expr.matches_ e p)
  | caller {c} : Phrase .prim c [.kw .std, .op .colon2, .kw .panic, .op .colon2, .kw .Location, .op .colon2,
      .kw .caller, .op .lparen, .op .rparen] Expr.unit
  | write {c s us es ss ps} : Phrase (.args .rparen) c.inside us es → Cuts s ss → Filled ss es ps →
      Phrase .prim c (.kw .write :: .op .bang :: .op .lparen :: .kw .f :: .op .comma :: .str s :: .op .comma :: us)
        (Expr.write ps)
  | write0 {c s ss ps} : Cuts s ss → Filled ss [] ps →
      Phrase .prim c [.kw .write, .op .bang, .op .lparen, .kw .f, .op .comma, .str s, .op .rparen] (Expr.write ps)
  | call {c us vs n ms as e} : Phrase .path c us (n, ms) → Phrase (.args .rparen) c.inside vs as →
      callOf c n ms as = some e → Phrase .prim c (us ++ .op .lparen :: vs) e
  | struct {c us vs n i fs} : c.structOk = true → Phrase .path c us (n, []) → ident n = some i →
      Phrase .fields c vs fs → Phrase .prim c (us ++ .op .lbrace :: vs) (Expr.struct i fs)
  | none_ {c us n} : Phrase .path c us (n, []) → ident n = some .None →
      Phrase .prim c us (Expr.variant .Option .None)
  | var {c us n i} : Phrase .path c us (n, []) → ident n = some i → i ≠ .None → Phrase .prim c us (Expr.var i)
  | variant {c us n m i j} : Phrase .path c us (n, [m]) → ident n = some i → ident m = some j →
      Phrase .prim c us (Expr.variant i j)
  /- lists -/
  | args0 {c o} : Phrase (.args o) c [.op o] []
  | args1 {c o us e} : Phrase .whole c us e → Phrase (.args o) c (us ++ [.op o]) [e]
  | argsMore {c o us vs e es} : Phrase .whole c us e → Phrase (.args o) c vs es →
      Phrase (.args o) c (us ++ .op .comma :: vs) (e :: es)
  | block {c us ss} : Phrase .stmts c.inside us ss → Phrase .block c (.op .lbrace :: us) (blockOf ss)
  | arms0 {c} : Phrase .arms c [.op .rbrace] Arms.nil
  | armBlock {c us vs bs ws p e as} : Phrase .pat c us p → Blocky vs → Phrase .prim c.inside vs e → OptComma bs →
      Phrase .arms c ws as → Phrase .arms c (us ++ .op .fatArrow :: vs ++ bs ++ ws) (Arms.cons p e as)
  | armLast {c us vs p e} : Phrase .pat c us p → ¬ Blocky vs → Phrase .whole c.inside vs e →
      Phrase .arms c (us ++ .op .fatArrow :: vs ++ [.op .rbrace]) (Arms.cons p e .nil)
  | armMore {c us vs ws p e as} : Phrase .pat c us p → ¬ Blocky vs → Phrase .whole c.inside vs e →
      Phrase .arms c ws as → Phrase .arms c (us ++ .op .fatArrow :: vs ++ .op .comma :: ws) (Arms.cons p e as)
  | fields0 {c} : Phrase .fields c [.op .rbrace] Fields.nil
  | fieldLast {c x i us e} : ident x = some i → Phrase .whole c.inside us e →
      Phrase .fields c (.name x :: .op .colon :: us ++ [.op .rbrace]) (Fields.cons i e .nil)
  | fieldMore {c x i us vs e fs} : ident x = some i → Phrase .whole c.inside us e → Phrase .fields c vs fs →
      Phrase .fields c (.name x :: .op .colon :: us ++ .op .comma :: vs) (Fields.cons i e fs)
  | params0 {c} : Phrase .params c [.op .bar] []
  | paramLast {c x i us t} : ident x = some i → Phrase .ty c us t →
      Phrase .params c (.name x :: .op .colon :: us ++ [.op .bar]) [(i, t)]
  | paramMore {c x i us vs t ps} : ident x = some i → Phrase .ty c us t → Phrase .params c vs ps →
      Phrase .params c (.name x :: .op .colon :: us ++ .op .comma :: vs) ((i, t) :: ps)
  /- statements -/
  | annot0 {c} : Phrase .annot c [] Ty.other
  | annot {c us t} : Phrase .ty c us t → Phrase .annot c (.op .colon :: us) t
  | sides {c us vs a b} : Phrase .whole c.inside us a → Phrase .whole c.inside vs b →
      Phrase .sides c (us ++ .op .comma :: vs ++ [.op .rparen, .op .semi]) (a, b)
  | sidesMessage {c us vs ws a b} : Phrase .whole c.inside us a → Phrase .whole c.inside vs b →
      Closes .lparen .rparen 1 ws →
      Phrase .sides c (us ++ .op .comma :: vs ++ .op .comma :: ws ++ [.op .semi]) (a, b)
  | stmts {c as us ss} : Attributes as → Phrase .bare c us ss → Phrase .stmts c (as ++ us) ss
  | finish {c} : Phrase .bare c [.op .rbrace] (Stmts.done .unit)
  | use {c us vs ss} : .op .semi ∉ us → Phrase .stmts c vs ss →
      Phrase .bare c (.kw .use :: us ++ .op .semi :: vs) ss
  | letFn {c rs n x o us vs ws ps b ss} : Refs rs → ident n = some x → ident c.owner = some o →
      Phrase .params c us ps → Phrase .whole c vs b →
      Phrase .stmts { c with closures := n :: c.closures } ws ss →
      Phrase .bare c (.kw .let :: rs ++ .name n :: .op .eq :: .op .bar :: us ++ vs ++ .op .semi :: ws)
        (Stmts.letFn o x ps b ss)
  | letClosure {c rs n x us vs e ss} : Refs rs → ident n = some x → Phrase .whole c us e →
      Phrase .stmts { c with closures := n :: c.closures } vs ss →
      Phrase .bare c (.kw .let :: rs ++ .name n :: .op .eq :: .op .bars :: us ++ .op .semi :: vs)
        (Stmts.letClosure x e ss)
  | let_ {c rs n x us vs ws t e ss} : Refs rs → ident n = some x → Phrase .annot c us t → Phrase .whole c vs e →
      Phrase .stmts c ws ss →
      Phrase .bare c (.kw .let :: rs ++ .name n :: us ++ .op .eq :: vs ++ .op .semi :: ws) (Stmts.let_ x t e ss)
  | assert {c us vs e ss} : Phrase .whole c us e → Phrase .stmts c vs ss →
      Phrase .bare c (.kw .assert :: .op .bang :: .op .lparen :: us ++ .op .rparen :: .op .semi :: vs)
        (Stmts.assert e ss)
  | assertEq {c us vs a b ss} : Phrase .sides c us (a, b) → Phrase .stmts c vs ss →
      Phrase .bare c (.kw .assert_eq :: .op .bang :: .op .lparen :: us ++ vs) (Stmts.assertEq true a b ss)
  | assertNe {c us vs a b ss} : Phrase .sides c us (a, b) → Phrase .stmts c vs ss →
      Phrase .bare c (.kw .assert_ne :: .op .bang :: .op .lparen :: us ++ vs) (Stmts.assertEq false a b ss)
  | forRevEnum {c i i' m m' v v' x x' us vs e ss} : ident i = some i' → ident m = some m' → ident v = some v' →
      ident x = some x' → Phrase .whole c us e → Phrase .stmts c vs ss →
      Phrase .bare c (.kw .for :: .op .lparen :: .name i :: .op .comma :: .name m :: .op .rparen :: .kw .in ::
        .name v :: .op .dot :: .kw .iter :: .op .lparen :: .op .rparen ::
        .op .dot :: .kw .rev :: .op .lparen :: .op .rparen ::
        .op .dot :: .kw .enumerate :: .op .lparen :: .op .rparen ::
        .op .lbrace :: .name x :: .op .orEq :: us ++ .op .semi :: .op .rbrace :: vs)
        (Stmts.forRevEnum i' m' (.var v') x' e ss)
  | blockLast {c us e} : Blocky us → Phrase .prim c us e → Phrase .bare c (us ++ [.op .rbrace]) (Stmts.done e)
  | blockSemi {c us vs e ss} : Blocky us → Phrase .prim c us e → Phrase .stmts c vs ss →
      Phrase .bare c (us ++ .op .semi :: vs) (Stmts.expr e ss)
  | blockMore {c us vs e ss} : Blocky us → Phrase .prim c us e → vs ≠ [.op .rbrace] → Phrase .stmts c vs ss →
      Phrase .bare c (us ++ vs) (Stmts.expr e ss)
  | exprLast {c us e} : ¬ Blocky us → Phrase .whole c us e → Phrase .bare c (us ++ [.op .rbrace]) (Stmts.done e)
  | exprSemi {c us vs e ss} : ¬ Blocky us → Phrase .whole c us e → Phrase .stmts c vs ss →
      Phrase .bare c (us ++ .op .semi :: vs) (Stmts.expr e ss)

end Raki.Source
