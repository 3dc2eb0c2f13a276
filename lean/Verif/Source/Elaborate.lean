import Verif.Source.Annotate
import Verif.Source.TypingSound
/-!
# Writing the types into a program

A function that finds what `Verif.Source.Annotate` asks for.  Where the type of an expression does not follow from
where it stands, it takes the type that the checker of `Verif.Source.Typing` finds, and `i32` for a literal that
nothing gives a type.
-/

namespace Raki.Source

set_option linter.constructorNameAsVariable false

/-- The integer type that is written so. -/
def Ty.kind : Ty → Option Kind
  | .u8 => some .u8
  | .u16 => some .u16
  | .u32 => some .u32
  | .usize => some .usize
  | .i32 => some .i32
  | _ => none

/-- Is it the same type? -/
def T.same : T → T → Bool
  | .num k s, t => (match t with | .num k' s' => k.same k' && (s && s' || !s && !s') | _ => false)
  | .int b, t => (match t with | .int c => Nat.beq b c | _ => false)
  | .bool, t => (match t with | .bool => true | _ => false)
  | .str, t => (match t with | .str => true | _ => false)
  | .unit, t => (match t with | .unit => true | _ => false)
  | .text, t => (match t with | .text => true | _ => false)
  | .never, t => (match t with | .never => true | _ => false)
  | .named x, t => (match t with | .named y => Source.same x y | _ => false)
  | .option a, t => (match t with | .option b => same a b | _ => false)
  | .result a e, t => (match t with | .result b f => same a b && same e f | _ => false)
  | .array a, t => (match t with | .array b => same a b | _ => false)

/-- Make up for what is not known. -/
def T.settle : T → T
  | .num k _ => .num k true
  | .int _ => .num .i32 true
  | .option a => .option (settle a)
  | .result a e => .result (settle a) (settle e)
  | .array a => .array (settle a)
  | t => t

/-- The type that the checker finds. -/
def guess (sig : Sig) (Γ : TEnv) (e : Expr) : Option T := (infer sig (fun _ => true) Γ e).map T.settle

/-- The type that the checker finds where the type is written as `w`. -/
def guessLet (sig : Sig) (Γ : TEnv) (w : Ty) (e : Expr) : Option T :=
  ((infer sig (fun _ => true) Γ e).bind (T.coerce w)).map T.settle

/-- The integer type that the checker finds. -/
def guessKind (sig : Sig) (Γ : TEnv) (e : Expr) : Option Kind :=
  match infer sig (fun _ => true) Γ e with
  | some (.num k _) => some k
  | _ => none

/-- The same for two operands. -/
def guessKinds (sig : Sig) (Γ : TEnv) (a b : Expr) : Option Kind :=
  match guessKind sig Γ a with
  | some k => some k
  | none => guessKind sig Γ b

/-- Does the written type stand for the type? -/
def writes : Ty → T → Bool
  | .option t, a => (match a with | .option b => writes t b | _ => false)
  | .result t, a => (match a with | .result b _ => writes t b | _ => false)
  | .array t, a => (match a with | .array b => writes t b | _ => false)
  | .other, _ => true
  | .u8, a => a.same (.num .u8 true)
  | .u16, a => a.same (.num .u16 true)
  | .u32, a => a.same (.num .u32 true)
  | .usize, a => a.same (.num .usize true)
  | .i32, a => a.same (.num .i32 true)

/-- Is there such a cast? -/
def castable : Kind → Kind → Bool
  | .u16, .usize => true
  | .u32, .usize => true
  | .u32, .i32 => true
  | _, _ => false

/-- Is the function one of those that may be called? -/
def offered (ps : List T) (t : T) : List (List T × T) → Bool
  | [] => false
  | (qs, r) :: l => (r.same t && sames ps qs) || offered ps t l
where
  /-- The same types. -/
  sames : List T → List T → Bool
    | [], [] => true
    | a :: as, b :: bs => a.same b && sames as bs
    | _, _ => false

/-- What an expression becomes where it is shown, if it can be. -/
def showAs (sig : Sig) (e : Expr) : Spec → T → Option Expr
  | .display, .str => some e
  | .display, .named x => (match offered [.named x] .text (sig x .fmt) with
    | true => some (.call x .fmt (.cons e .nil))
    | false => none)
  | _, .num .usize true => some e
  | _, .num .i32 true => some e
  | _, _ => none

/-- The first of the functions whose result has the type and whose parameters the arguments fit. -/
def pickCall (t : T) (args : List T → Option Exprs) : List (List T × T) → Option Exprs
  | [] => none
  | (ps, r) :: l => (match r.same t with
    | true => (match args ps with
      | some es => some es
      | none => pickCall t args l)
    | false => pickCall t args l)

/-- The same for a method whose receiver has the type `a`. -/
def pickMethod (t a : T) (args : List T → Option Exprs) : List (List T × T) → Option Exprs
  | [] => none
  | ([], _) :: l => pickMethod t a args l
  | (p :: ps, r) :: l => (match r.same t && p.same a with
    | true => (match args ps with
      | some es => some es
      | none => pickMethod t a args l)
    | false => pickMethod t a args l)

mutual

/-- Write the types into an expression that is to have the type `t`. -/
def annotate (sig : Sig) (ret : T) (Γ : TEnv) (t : T) : Expr → Option Expr
  | .lit n => (match t with
    | .num k true => given (Nat.blt n (2 ^ k.bits)) (.litT n k.ty)
    | _ => none)
  | .litT n ty => ty.kind.bind fun k => given (t.same (.num k true) && Nat.blt n (2 ^ k.bits)) (.litT n ty)
  | .unit => given (t.same .unit) .unit
  | .bool b => given (t.same .bool) (.bool b)
  | .str s => given (t.same .str) (.str s)
  | .var x => (assoc Γ x).bind fun a => given (a.same t) (.var x)
  | .callClosure x => (assoc Γ x).bind fun a => given (a.same t) (.callClosure x)
  | .variant ty c => (match payload t ty c with
    | some none => some (.variant ty c)
    | _ => none)
  | .variantOf ty c e => (match payload t ty c with
    | some (some a) => (annotate sig ret Γ a e).map (.variantOf ty c)
    | _ => none)
  | .call o f es => (pickCall t (fun ps => annotateArgs sig ret Γ ps es) (sig o f)).map (.call o f)
  | .method e f es => (guess sig Γ e).bind fun a => a.owner.bind fun o => (annotate sig ret Γ a e).bind fun e' =>
      (pickMethod t a (fun ps => annotateArgs sig ret Γ ps es) (sig o f)).map fun es' => .call o f (.cons e' es')
  | .field e x => (guess sig Γ e).bind fun a => (match a with
    | .named ty => (membersOf ty).bind fun ds => (assoc ds x).bind fun b => (match b.same t with
      | true => (annotate sig ret Γ (.named ty) e).map (.field · x)
      | false => none)
    | _ => none)
  | .bin op a b => (match op with
    | .shl | .shr => (guessKind sig Γ b).bind fun k => (shiftT op t).bind fun s => (match s.same t && k.unsigned with
      | true => (annotate sig ret Γ t a).bind fun a' => (annotate sig ret Γ (.num k true) b).map (.bin op a')
      | false => none)
    | _ => (guessKinds sig Γ a b).bind fun k => (arithT op k).bind fun s => (match s.same t with
      | true => (annotate sig ret Γ (.num k true) a).bind fun a' => (annotate sig ret Γ (.num k true) b).map (.bin op a')
      | false => none))
  | .neg e => (match t.same (.num .i32 true) with
    | true => (annotate sig ret Γ (.num .i32 true) e).map .neg
    | false => none)
  | .matches_ e p => (guess sig Γ e).bind fun a => (patT a p).bind fun _ => (match t.same .bool with
    | true => (annotate sig ret Γ a e).map (.matches_ · p)
    | false => none)
  | .cast e ty => ty.kind.bind fun l => (guessKind sig Γ e).bind fun k => (match t.same (.num l true) && castable k l with
    | true => (annotate sig ret Γ (.num k true) e).map (.cast · ty)
    | false => none)
  | .tryFrom ty e => (guessKind sig Γ e).bind fun k => (tryFromT ty (.num k true)).bind fun a => (match a.same t with
    | true => (annotate sig ret Γ (.num k true) e).map (.tryFrom ty)
    | false => none)
  | .from_ ty e => (match ty, t.same (.num .u32 true) with
    | .u32, true => (annotate sig ret Γ (.num .u16 true) e).map (.from_ .u32)
    | _, _ => none)
  | .pow a b => (powT t (some (.num .u32 true))).bind fun s => (match s.same t with
    | true => (annotate sig ret Γ t a).bind fun a' => (annotate sig ret Γ (.num .u32 true) b).map (.pow a')
    | false => none)
  | .unwrap e => (guess sig Γ e).bind fun a => (match a with
    | .option _ => (annotate sig ret Γ (.option t) e).map .unwrap
    | .result _ b => (annotate sig ret Γ (.result t b) e).map .unwrap
    | _ => none)
  | .orElse _ _ _ => none
  | .into e => (match t.same (.num .usize true) with
    | true => (annotate sig ret Γ (.num .u8 true) e).map .into
    | false => none)
  | .question e => (match ret with
    | .result _ a => (annotate sig ret Γ (.result t a) e).map .question
    | _ => none)
  | .ret e => (annotate sig ret Γ ret e).map .ret
  | .ite c a b => (annotate sig ret Γ .bool c).bind fun c' => (annotate sig ret Γ t a).bind fun a' =>
      (annotate sig ret Γ t b).map (.ite c' a')
  | .match_ e as => (guess sig Γ e).bind fun a => (annotate sig ret Γ a e).bind fun e' =>
      (annotateArms sig ret Γ a t as).map (.match_ e')
  | .block ss => (annotateStmts sig ret Γ t ss).map .block
  | .struct ty fs => (membersOf ty).bind fun ds => (match t.same (.named ty) with
    | true => (annotateFields sig ret Γ ds fs).map (.struct ty)
    | false => none)
  | .array es => (match t with
    | .array a => (annotateAll sig ret Γ a es).map .array
    | _ => none)
  | .unreachable => some .unreachable
  | .write ps => (match t.same .text with
    | true => (annotatePieces sig ret Γ ps).map .write
    | false => none)

/-- The same for arguments. -/
def annotateArgs (sig : Sig) (ret : T) (Γ : TEnv) (ts : List T) : Exprs → Option Exprs
  | .nil => (match ts with
    | [] => some .nil
    | _ => none)
  | .cons e es => (match ts with
    | t :: ts => (annotate sig ret Γ t e).bind fun e' => (annotateArgs sig ret Γ ts es).map (.cons e')
    | [] => none)

/-- The same for the elements of an array. -/
def annotateAll (sig : Sig) (ret : T) (Γ : TEnv) (t : T) : Exprs → Option Exprs
  | .nil => some .nil
  | .cons e es => (annotate sig ret Γ t e).bind fun e' => (annotateAll sig ret Γ t es).map (.cons e')

/-- The same for the arms of a `match`. -/
def annotateArms (sig : Sig) (ret : T) (Γ : TEnv) (a t : T) : Arms → Option Arms
  | .nil => some .nil
  | .cons p e as => (patT a p).bind fun Δ => (annotate sig ret (Δ ++ Γ) t e).bind fun e' =>
      (annotateArms sig ret Γ a t as).map (.cons p e')

/-- The same for the fields of a struct expression. -/
def annotateFields (sig : Sig) (ret : T) (Γ : TEnv) (ds : List (Id × T)) : Fields → Option Fields
  | .nil => (match ds with
    | [] => some .nil
    | _ => none)
  | .cons x e fs => (match ds with
    | (y, t) :: ds => (match same x y with
      | true => (annotate sig ret Γ t e).bind fun e' => (annotateFields sig ret Γ ds fs).map (.cons x e')
      | false => none)
    | [] => none)

/-- The same for the arguments of a format string. -/
def annotatePieces (sig : Sig) (ret : T) (Γ : TEnv) : Pieces → Option Pieces
  | .nil => some .nil
  | .text s ps => (annotatePieces sig ret Γ ps).map (.text s)
  | .arg s e ps => (guess sig Γ e).bind fun a => (annotate sig ret Γ a e).bind fun e' =>
    (showAs sig e' s a).bind fun e'' => (annotatePieces sig ret Γ ps).map (.arg s e'')

/-- The same for statements. -/
def annotateStmts (sig : Sig) (ret : T) (Γ : TEnv) (t : T) : Stmts → Option Stmts
  | .done e => (annotate sig ret Γ t e).map .done
  | .let_ x w e ss => (guessLet sig Γ w e).bind fun a => (match writes w a with
    | true => (annotate sig ret Γ a e).bind fun e' => (annotateStmts sig ret ((x, a) :: Γ) t ss).map (.let_ x w e')
    | false => none)
  | .letClosure x e ss => (guess sig Γ e).bind fun a => (annotate sig ret Γ a e).bind fun e' =>
      (annotateStmts sig ret ((x, a) :: Γ) t ss).map (.letClosure x e')
  | .letFn _ _ _ _ _ => none
  | .expr e ss => (guess sig Γ e).bind fun a => (annotate sig ret Γ a e).bind fun e' =>
      (annotateStmts sig ret Γ t ss).map (.expr e')
  | .assert e ss => (annotate sig ret Γ .bool e).bind fun e' => (annotateStmts sig ret Γ t ss).map (.assert e')
  | .assertEq _ _ _ _ => none
  | .forRevEnum i y e x b ss => (guess sig Γ e).bind fun a => (match a, isU32 (assoc Γ x) with
    | .array c, true => (annotate sig ret Γ (.array c) e).bind fun e' =>
        (annotate sig ret ((y, c) :: (i, .num .usize true) :: Γ) (.num .u32 true) b).bind fun b' =>
          (annotateStmts sig ret Γ t ss).map (.forRevEnum i y e' x b')
    | _, _ => none)

end

/-- The variables that the parameters are, if they are written as their types. -/
def paramsOf : List (Id × Ty) → List T → Option TEnv
  | [], [] => some []
  | (x, w) :: ps, a :: as => (match writes w a with
    | true => (paramsOf ps as).map ((x, a) :: ·)
    | false => none)
  | _, _ => none

/-- Write the types into the body of a function of this type. -/
def annotateFn (sig : Sig) (fn : Fn) (q : List T × T) : Option Expr :=
  match writes fn.ret q.2 with
  | true => (paramsOf fn.params q.1).bind fun Γ => annotate sig q.2 Γ q.2 fn.body
  | false => none

end Raki.Source
