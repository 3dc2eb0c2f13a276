import Verif.Source.Typing
import Verif.Source.Eval
/-!
# Programs in which every literal has its type and every call its function

The evaluator goes by values where Rust goes by types: a literal without suffix takes the type of what it meets, and a
method belongs to the type of its receiver's value.  `Annotates` says what it is to write these decisions into the
program: `Ann Γ e t e'` says that `e` has the type `t`, and that `e'` is `e` with a type behind every literal, with
every method call turned into a call of the function that the type of the receiver has, and with the call of `fmt` where
`write!` shows a value of a type of the crate.  Any types that agree with the
declarations will do; how Rust finds them does not matter.

In `T`, the types that a value can have are those in which every integer is `known`.
-/

namespace Raki.Source

set_option linter.constructorNameAsVariable false

/-- The integer type, as it is written. -/
def Kind.ty : Kind → Ty
  | .u8 => .u8
  | .u16 => .u16
  | .u32 => .u32
  | .usize => .usize
  | .i32 => .i32

/-- The type as it is written, as far as the trees of `Verif.Source.Program` hold it, is the type. -/
inductive Writes : Ty → T → Prop
  | num (k : Kind) : Writes k.ty (.num k true)
  | option {t a} : Writes t a → Writes (.option t) (.option a)
  | result {t a} (e : T) : Writes t a → Writes (.result t) (.result a e)
  | array {t a} : Writes t a → Writes (.array t) (.array a)
  | other (a : T) : Writes .other a

/-- `as` between integers, as far as the crate uses it. -/
inductive Casts : Kind → Kind → Prop
  | u16usize : Casts .u16 .usize
  | u32usize : Casts .u32 .usize
  | u32i32 : Casts .u32 .i32

/-- `write!` can show an expression of the type in this way, and this is what it becomes: `{}` of a type of the crate is
what the function `fmt` of that type writes. -/
inductive Shows (sig : Sig) : Spec → T → Expr → Expr → Prop
  | str {e} : Shows sig .display .str e e
  | usize (s : Spec) {e} : Shows sig s (.num .usize true) e e
  | i32 (s : Spec) {e} : Shows sig s (.num .i32 true) e e
  | named {x : Id} {e} : ([.named x], .text) ∈ sig x .fmt →
      Shows sig .display (.named x) e (.call x .fmt (.cons e .nil))

mutual

/-- The expression has the type, and this is what it becomes. -/
inductive Ann (sig : Sig) (ret : T) : TEnv → Expr → T → Expr → Prop
  | lit {Γ n} (k : Kind) : n < 2 ^ k.bits → Ann sig ret Γ (.lit n) (.num k true) (.litT n k.ty)
  | litT {Γ n} (k : Kind) : n < 2 ^ k.bits → Ann sig ret Γ (.litT n k.ty) (.num k true) (.litT n k.ty)
  | unit {Γ} : Ann sig ret Γ .unit .unit .unit
  | bool {Γ b} : Ann sig ret Γ (.bool b) .bool (.bool b)
  | str {Γ s} : Ann sig ret Γ (.str s) .str (.str s)
  | var {Γ x t} : assoc Γ x = some t → Ann sig ret Γ (.var x) t (.var x)
  | callClosure {Γ x t} : assoc Γ x = some t → Ann sig ret Γ (.callClosure x) t (.callClosure x)
  | variant {Γ ty c t} : payload t ty c = some none → Ann sig ret Γ (.variant ty c) t (.variant ty c)
  | variantOf {Γ ty c e t a e'} : payload t ty c = some (some a) → Ann sig ret Γ e a e' →
      Ann sig ret Γ (.variantOf ty c e) t (.variantOf ty c e')
  | call {Γ o f es ps t es'} : (ps, t) ∈ sig o f → AnnArgs sig ret Γ es ps es' →
      Ann sig ret Γ (.call o f es) t (.call o f es')
  | method {Γ e f es a o ps t e' es'} : Ann sig ret Γ e a e' → a.owner = some o → (a :: ps, t) ∈ sig o f →
      AnnArgs sig ret Γ es ps es' → Ann sig ret Γ (.method e f es) t (.call o f (.cons e' es'))
  | field {Γ e x ty ds t e'} : Ann sig ret Γ e (.named ty) e' → membersOf ty = some ds → assoc ds x = some t →
      Ann sig ret Γ (.field e x) t (.field e' x)
  | arith {Γ op a b k t a' b'} : Ann sig ret Γ a (.num k true) a' → Ann sig ret Γ b (.num k true) b' →
      arithT op k = some t → Ann sig ret Γ (.bin op a b) t (.bin op a' b')
  | shift {Γ op a b k t a' b'} : Ann sig ret Γ a t a' → Ann sig ret Γ b (.num k true) b' → k.unsigned = true →
      shiftT op t = some t → Ann sig ret Γ (.bin op a b) t (.bin op a' b')
  | neg {Γ e e'} : Ann sig ret Γ e (.num .i32 true) e' → Ann sig ret Γ (.neg e) (.num .i32 true) (.neg e')
  | matches_ {Γ e p a Δ e'} : Ann sig ret Γ e a e' → patT a p = some Δ →
      Ann sig ret Γ (.matches_ e p) .bool (.matches_ e' p)
  | cast {Γ e k l e'} : Ann sig ret Γ e (.num k true) e' → Casts k l →
      Ann sig ret Γ (.cast e l.ty) (.num l true) (.cast e' l.ty)
  | tryFrom {Γ e k t a e'} : Ann sig ret Γ e (.num k true) e' → tryFromT t (.num k true) = some a →
      Ann sig ret Γ (.tryFrom t e) a (.tryFrom t e')
  | from_ {Γ e e'} : Ann sig ret Γ e (.num .u16 true) e' → Ann sig ret Γ (.from_ .u32 e) (.num .u32 true) (.from_ .u32 e')
  | pow {Γ a b t a' b'} : Ann sig ret Γ a t a' → Ann sig ret Γ b (.num .u32 true) b' →
      powT t (some (.num .u32 true)) = some t → Ann sig ret Γ (.pow a b) t (.pow a' b')
  | unwrapOption {Γ e t e'} : Ann sig ret Γ e (.option t) e' → Ann sig ret Γ (.unwrap e) t (.unwrap e')
  | unwrapResult {Γ e t a e'} : Ann sig ret Γ e (.result t a) e' → Ann sig ret Γ (.unwrap e) t (.unwrap e')
  | into {Γ e e'} : Ann sig ret Γ e (.num .u8 true) e' → Ann sig ret Γ (.into e) (.num .usize true) (.into e')
  | question {Γ e t a b e'} : Ann sig ret Γ e (.result t a) e' → ret = .result b a →
      Ann sig ret Γ (.question e) t (.question e')
  | ret {Γ e t e'} : Ann sig ret Γ e ret e' → Ann sig ret Γ (.ret e) t (.ret e')
  | ite {Γ c a b t c' a' b'} : Ann sig ret Γ c .bool c' → Ann sig ret Γ a t a' → Ann sig ret Γ b t b' →
      Ann sig ret Γ (.ite c a b) t (.ite c' a' b')
  | match_ {Γ e as a t e' as'} : Ann sig ret Γ e a e' → AnnArms sig ret Γ a as t as' →
      Ann sig ret Γ (.match_ e as) t (.match_ e' as')
  | block {Γ ss t ss'} : AnnStmts sig ret Γ ss t ss' → Ann sig ret Γ (.block ss) t (.block ss')
  | struct {Γ ty fs ds fs'} : membersOf ty = some ds → AnnFields sig ret Γ fs ds fs' →
      Ann sig ret Γ (.struct ty fs) (.named ty) (.struct ty fs')
  | array {Γ es ts a es'} : AnnArgs sig ret Γ es ts es' → (∀ t ∈ ts, t = a) →
      Ann sig ret Γ (.array es) (.array a) (.array es')
  | unreachable {Γ t} : Ann sig ret Γ .unreachable t .unreachable
  | write {Γ ps ps'} : AnnPieces sig ret Γ ps ps' → Ann sig ret Γ (.write ps) .text (.write ps')

/-- The same for arguments. -/
inductive AnnArgs (sig : Sig) (ret : T) : TEnv → Exprs → List T → Exprs → Prop
  | nil {Γ} : AnnArgs sig ret Γ .nil [] .nil
  | cons {Γ e es t ts e' es'} : Ann sig ret Γ e t e' → AnnArgs sig ret Γ es ts es' →
      AnnArgs sig ret Γ (.cons e es) (t :: ts) (.cons e' es')

/-- The arms of a `match` on a value of the type `a`. -/
inductive AnnArms (sig : Sig) (ret : T) : TEnv → T → Arms → T → Arms → Prop
  | nil {Γ a t} : AnnArms sig ret Γ a .nil t .nil
  | cons {Γ a p e as t Δ e' as'} : patT a p = some Δ → Ann sig ret (Δ ++ Γ) e t e' → AnnArms sig ret Γ a as t as' →
      AnnArms sig ret Γ a (.cons p e as) t (.cons p e' as')

/-- The fields of a struct expression; they are given in the order in which they are declared. -/
inductive AnnFields (sig : Sig) (ret : T) : TEnv → Fields → List (Id × T) → Fields → Prop
  | nil {Γ} : AnnFields sig ret Γ .nil [] .nil
  | cons {Γ x e fs t ds e' fs'} : Ann sig ret Γ e t e' → AnnFields sig ret Γ fs ds fs' →
      AnnFields sig ret Γ (.cons x e fs) ((x, t) :: ds) (.cons x e' fs')

/-- The arguments of a format string. -/
inductive AnnPieces (sig : Sig) (ret : T) : TEnv → Pieces → Pieces → Prop
  | nil {Γ} : AnnPieces sig ret Γ .nil .nil
  | text {Γ s ps ps'} : AnnPieces sig ret Γ ps ps' → AnnPieces sig ret Γ (.text s ps) (.text s ps')
  | arg {Γ s e ps t e' e'' ps'} : Ann sig ret Γ e t e' → Shows sig s t e' e'' → AnnPieces sig ret Γ ps ps' →
      AnnPieces sig ret Γ (.arg s e ps) (.arg s e'' ps')

/-- The statements of a block. -/
inductive AnnStmts (sig : Sig) (ret : T) : TEnv → Stmts → T → Stmts → Prop
  | done {Γ e t e'} : Ann sig ret Γ e t e' → AnnStmts sig ret Γ (.done e) t (.done e')
  | let_ {Γ x w e ss a t e' ss'} : Ann sig ret Γ e a e' → Writes w a → AnnStmts sig ret ((x, a) :: Γ) ss t ss' →
      AnnStmts sig ret Γ (.let_ x w e ss) t (.let_ x w e' ss')
  | letClosure {Γ x e ss a t e' ss'} : Ann sig ret Γ e a e' → AnnStmts sig ret ((x, a) :: Γ) ss t ss' →
      AnnStmts sig ret Γ (.letClosure x e ss) t (.letClosure x e' ss')
  | expr {Γ e ss a t e' ss'} : Ann sig ret Γ e a e' → AnnStmts sig ret Γ ss t ss' →
      AnnStmts sig ret Γ (.expr e ss) t (.expr e' ss')
  | assert {Γ e ss t e' ss'} : Ann sig ret Γ e .bool e' → AnnStmts sig ret Γ ss t ss' →
      AnnStmts sig ret Γ (.assert e ss) t (.assert e' ss')
  | forRevEnum {Γ i y e x b ss a t e' b' ss'} : Ann sig ret Γ e (.array a) e' → assoc Γ x = some (.num .u32 true) →
      Ann sig ret ((y, a) :: (i, .num .usize true) :: Γ) b (.num .u32 true) b' → AnnStmts sig ret Γ ss t ss' →
      AnnStmts sig ret Γ (.forRevEnum i y e x b ss) t (.forRevEnum i y e' x b' ss')

end

/-- The parameters have these types. -/
inductive ParamsAre : List (Id × Ty) → List T → TEnv → Prop
  | nil : ParamsAre [] [] []
  | cons {x w ps a as Γ} : Writes w a → ParamsAre ps as Γ → ParamsAre ((x, w) :: ps) (a :: as) ((x, a) :: Γ)

/-- The body of a function of this type becomes that one. -/
def AnnFn (sig : Sig) (fn : Fn) (q : List T × T) (body : Expr) : Prop :=
  Writes fn.ret q.2 ∧ ∃ Γ, ParamsAre fn.params q.1 Γ ∧ Ann sig q.2 Γ fn.body q.2 body

/-- The program becomes that one, function by function; a generic function has several types. -/
inductive Annotates (sig : Sig) : List Fn → List Fn → Prop
  | nil : Annotates sig [] []
  | cons {fn fns body fns'} : (∀ q ∈ sig fn.owner fn.name, AnnFn sig fn q body) → Annotates sig fns fns' →
      Annotates sig (fn :: fns) ({ fn with body := body } :: fns')

mutual

/-- Every literal has its type, and no function is called as a method. -/
def Expr.explicit : Expr → Bool
  | .lit _ => false
  | .method _ _ _ => false
  | .litT _ _ | .unit | .bool _ | .str _ | .var _ | .variant _ _ | .callClosure _ | .unreachable => true
  | .variantOf _ _ e => e.explicit
  | .call _ _ es => es.explicit
  | .field e _ => e.explicit
  | .bin _ a b => a.explicit && b.explicit
  | .neg e => e.explicit
  | .matches_ e _ => e.explicit
  | .cast e _ => e.explicit
  | .tryFrom _ e => e.explicit
  | .from_ _ e => e.explicit
  | .pow a b => a.explicit && b.explicit
  | .unwrap e => e.explicit
  | .orElse a _ b => a.explicit && b.explicit
  | .into e => e.explicit
  | .question e => e.explicit
  | .ret e => e.explicit
  | .ite c a b => c.explicit && (a.explicit && b.explicit)
  | .match_ e as => e.explicit && as.explicit
  | .block ss => ss.explicit
  | .struct _ fs => fs.explicit
  | .array es => es.explicit
  | .write ps => ps.explicit

/-- The same for arguments. -/
def Exprs.explicit : Exprs → Bool
  | .nil => true
  | .cons e es => e.explicit && es.explicit

/-- The same for the arms of a `match`. -/
def Arms.explicit : Arms → Bool
  | .nil => true
  | .cons _ e as => e.explicit && as.explicit

/-- The same for the fields of a struct expression. -/
def Fields.explicit : Fields → Bool
  | .nil => true
  | .cons _ e fs => e.explicit && fs.explicit

/-- The same for the arguments of a format string. -/
def Pieces.explicit : Pieces → Bool
  | .nil => true
  | .text _ ps => ps.explicit
  | .arg _ e ps => e.explicit && ps.explicit

/-- The same for statements. -/
def Stmts.explicit : Stmts → Bool
  | .done e => e.explicit
  | .let_ _ _ e ss => e.explicit && ss.explicit
  | .letClosure _ e ss => e.explicit && ss.explicit
  | .letFn _ _ _ b ss => b.explicit && ss.explicit
  | .expr e ss => e.explicit && ss.explicit
  | .assert e ss => e.explicit && ss.explicit
  | .assertEq _ a b ss => a.explicit && (b.explicit && ss.explicit)
  | .forRevEnum _ _ e _ b ss => e.explicit && (b.explicit && ss.explicit)

end

end Raki.Source
