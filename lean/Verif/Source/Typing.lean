import Verif.Source.Program
/-!
# A type checker for the Rust subset

The evaluator looks at values where Rust looks at types, and is stuck where Rust's type checker would reject the code.
This is a type checker for the same syntax: it finds the type of an expression without running it, checks that a
`match` covers every case, and that literals fit their types.  It does not accept what the crate does not use: local
functions, `assert_eq!` and `unwrap_or_else`.
-/

namespace Raki.Source

/-- Integer types. -/
inductive Kind where
  | u8 | u16 | u32 | usize | i32

/-- Types.  An integer may still be a literal that has not got its type yet. -/
inductive T where
  /-- an integer; a literal that is to become one is allowed too unless `known` -/
  | num (k : Kind) (known : Bool)
  /-- a literal below `2 ^ bits` -/
  | int (bits : Nat)
  | bool
  | str
  | unit
  /-- what a `fmt` function returns -/
  | text
  /-- the type of `return` and `unreachable!` -/
  | never
  /-- a type that the crate declares -/
  | named (x : Id)
  | option (a : T)
  | result (a e : T)
  | array (a : T)

/-- Is it the same name? -/
def same (x y : Id) : Bool := decide (x = y)

namespace Kind

/-- Is it the same type? -/
def same : Kind → Kind → Bool
  | u8, u8 => true
  | u16, u16 => true
  | u32, u32 => true
  | usize, usize => true
  | i32, i32 => true
  | _, _ => false

/-- A literal below `2 ^ bits` fits, whatever the width of `usize`. -/
def bits : Kind → Nat
  | u8 => 8
  | u16 => 16
  | u32 => 32
  | usize => 16
  | i32 => 31

/-- The name of the type. -/
def id : Kind → Id
  | u8 => .u8
  | u16 => .u16
  | u32 => .u32
  | usize => .usize
  | i32 => .i32

/-- All but `i32`. -/
def unsigned : Kind → Bool
  | i32 => false
  | _ => true

end Kind

/-- `some t` if the condition holds. -/
def given {α : Type} (b : Bool) (a : α) : Option α :=
  match b with
  | true => some a
  | false => none

namespace T

/-- Is every value of the first type one of the second? -/
def sub : T → T → Bool
  | .never, _ => true
  | .int b, t => (match t with
    | .int c => Nat.ble b c
    | .num k false => Nat.ble b k.bits
    | _ => false)
  | .num k s, t => (match t with
    | .num k' s' => k.same k' && (s || !s')
    | _ => false)
  | .bool, t => (match t with | .bool => true | _ => false)
  | .str, t => (match t with | .str => true | _ => false)
  | .unit, t => (match t with | .unit => true | _ => false)
  | .text, t => (match t with | .text => true | _ => false)
  | .named x, t => (match t with | .named y => Source.same x y | _ => false)
  | .option a, t => (match t with | .option b => sub a b | _ => false)
  | .result a e, t => (match t with | .result b f => sub a b && sub e f | _ => false)
  | .array a, t => (match t with | .array b => sub a b | _ => false)

/-- A type for the values of both. -/
def join : T → T → Option T
  | .never, t => some t
  | .int b, t => (match t with
    | .never => some (.int b)
    | .int c => some (.int (max b c))
    | .num k _ => given (Nat.ble b k.bits) (.num k false)
    | _ => none)
  | .num k s, t => (match t with
    | .never => some (.num k s)
    | .int c => given (Nat.ble c k.bits) (.num k false)
    | .num k' s' => given (k.same k') (.num k (s && s'))
    | _ => none)
  | .bool, t => (match t with | .never | .bool => some .bool | _ => none)
  | .str, t => (match t with | .never | .str => some .str | _ => none)
  | .unit, t => (match t with | .never | .unit => some .unit | _ => none)
  | .text, t => (match t with | .never | .text => some .text | _ => none)
  | .named x, t => (match t with
    | .never => some (.named x)
    | .named y => given (Source.same x y) (.named x)
    | _ => none)
  | .option a, t => (match t with
    | .never => some (.option a)
    | .option b => (join a b).map .option
    | _ => none)
  | .result a e, t => (match t with
    | .never => some (.result a e)
    | .result b f => (join a b).bind fun c => (join e f).map (.result c)
    | _ => none)
  | .array a, t => (match t with
    | .never => some (.array a)
    | .array b => (join a b).map .array
    | _ => none)

/-- Allow literals too. -/
def loose : T → T
  | .num k _ => .num k false
  | .option a => .option (loose a)
  | .result a e => .result (loose a) e
  | .array a => .array (loose a)
  | t => t

/-- The type of what `coerce` makes of an integer. -/
def become (k : Kind) : T → Option T
  | .int b => given (Nat.ble b k.bits) (.num k true)
  | .num k' _ => given (k.same k') (.num k true)
  | .never => some .never
  | _ => none

/-- The type of what `coerce` makes of a value. -/
def coerce : Ty → T → Option T
  | .u8, a => become .u8 a
  | .u16, a => become .u16 a
  | .u32, a => become .u32 a
  | .usize, a => become .usize a
  | .i32, a => become .i32 a
  | .option t, a => (match a with
    | .option b => (coerce t b).map .option
    | .never => some .never
    | _ => none)
  | .result t, a => (match a with
    | .result b e => (coerce t b).map (.result · e)
    | .never => some .never
    | _ => none)
  | .array t, a => (match a with
    | .array b => (coerce t b).map .array
    | .never => some .never
    | _ => none)
  | .other, a => some a

/-- Are the values unsigned integers? -/
def unsigned : T → Bool
  | .num k _ => k.unsigned
  | .int _ => true
  | _ => false

/-- The type that owns the methods. -/
def owner : T → Option Id
  | .num k true => some k.id
  | .named x => some x
  | _ => none

end T

/-- The variants of an enum of the declarations. -/
def variantsIn : List TypeDecl → Id → Option (List (Id × Option Id))
  | [], _ => none
  | d :: ds, x => (match same x d.name with
    | true => (match d.shape with
      | .enum vs => some vs
      | .struct _ => none)
    | false => variantsIn ds x)

/-- The variants of an enum of the crate. -/
def variants (x : Id) : Option (List (Id × Option Id)) := variantsIn types x

/-- The fields of a struct of the crate, in order.  The declarations of `Verif.Source.Program` leave out the names of
types, which are given here: src/instruction.rs:27-44. -/
def membersOf : Id → Option (List (Id × T))
  | .Instruction => some [(.opc, .named .OpcodeKind), (.rd, .option (.num .usize true)),
      (.rs1, .option (.num .usize true)), (.rs2, .option (.num .usize true)), (.imm, .option (.num .i32 true)),
      (.inst_format, .named .InstFormat), (.is_compressed, .bool)]
  | _ => none

/-- Look up in a list. -/
def assoc {α : Type} : List (Id × α) → Id → Option α
  | [], _ => none
  | (y, a) :: l, x => (match same x y with
    | true => some a
    | false => assoc l x)

/-- Types of the variables in scope, latest first; for a closure, the type of its result. -/
abbrev TEnv := List (Id × T)

/-- The parameters and the result of the functions that may be called; a generic function has one of each for every
type it is used at. -/
abbrev Sig := Id → Id → List (List T × T)

/-- What the variant `c` of `ty` holds, where `ty` is the type `t`. -/
def payload (t : T) (ty c : Id) : Option (Option T) :=
  match t with
  | .option a => (match ty, c with
    | .Option, .None => some none
    | .Option, .Some => some (some a)
    | _, _ => none)
  | .result a e => (match ty, c with
    | .Result, .Ok => some (some a)
    | .Result, .Err => some (some e)
    | _, _ => none)
  | .named x => (match same ty x with
    | true => (variants x).bind fun vs => (assoc vs c).map (·.map .named)
    | false => none)
  | _ => none

/-- The variables that a pattern binds, where the value is of type `t`. -/
def patT (t : T) : Pat → Option TEnv
  | .wild => some []
  | .var x => some [(x, t)]
  | .lit _ => given t.unsigned []
  | .range _ _ => given t.unsigned []
  | .ctor ty c => (match payload t ty c with
    | some none => some []
    | _ => none)
  | .ctor1 ty c p => (match payload t ty c with
    | some (some a) => patT a p
    | _ => none)
  | .or p q => (match patT t p, patT t q with
    | some [], some [] => some []
    | _, _ => none)

/-- The cases a `match` has to cover. -/
inductive Case where
  | any
  | variant (ty c : Id)
  | variantOf (ty c : Id) (s : Case)

/-- The cases of the variants of `x`. -/
def casesOf (x : Id) : List (Id × Option Id) → List Case
  | [] => []
  | (c, none) :: vs => .variant x c :: casesOf x vs
  | (c, some _) :: vs => .variantOf x c .any :: casesOf x vs

namespace T

/-- The cases of a type. -/
def cases : T → List Case
  | .option a => .variant .Option .None :: (cases a).map (.variantOf .Option .Some)
  | .result a e => (cases a).map (.variantOf .Result .Ok) ++ (cases e).map (.variantOf .Result .Err)
  | .named x => (match variants x with
    | some vs => casesOf x vs
    | none => [.any])
  | _ => [.any]

end T

/-- Does the pattern match every value of the case? -/
def patCovers : Pat → Case → Bool
  | .wild, _ => true
  | .var _, _ => true
  | .ctor ty c, s => (match s with
    | .variant ty' c' => same ty ty' && same c c'
    | _ => false)
  | .ctor1 ty c p, s => (match s with
    | .variantOf ty' c' s' => same ty ty' && same c c' && patCovers p s'
    | _ => false)
  | .or p q, s => patCovers p s || patCovers q s
  | _, _ => false

/-- The cases that the pattern leaves over. -/
def left (p : Pat) : List Case → List Case
  | [] => []
  | s :: ss => (match patCovers p s with
    | true => left p ss
    | false => s :: left p ss)

/-- The type of `a op b` on operands of the same type. -/
def arithT : BinOp → Kind → Option T
  | .add, .u16 => some (.num .u16 true)
  | .add, .u32 => some (.num .u32 true)
  | .sub, .u16 => some (.num .u16 true)
  | .sub, .u32 => some (.num .u32 true)
  | .sub, .i32 => some (.num .i32 true)
  | .and, .u16 => some (.num .u16 true)
  | .and, .u32 => some (.num .u32 true)
  | .and, .usize => some (.num .usize true)
  | .and, .i32 => some (.num .i32 true)
  | .or, .u32 => some (.num .u32 true)
  | .eq, .u16 => some .bool
  | .eq, .u32 => some .bool
  | .eq, .usize => some .bool
  | .eq, .i32 => some .bool
  | .ge, .u32 => some .bool
  | _, _ => none

/-- The type that two operands share; it must be known for one of them. -/
def shared : T → T → Option Kind
  | .num k s, .num k' s' => given (k.same k' && (s || s')) k
  | .num k true, .int b => given (Nat.ble b k.bits) k
  | .int b, .num k true => given (Nat.ble b k.bits) k
  | _, _ => none

/-- The type of `a << b` and `a >> b`. -/
def shiftT : BinOp → T → Option T
  | .shl, .num .u16 true => some (.num .u16 true)
  | .shl, .num .u32 true => some (.num .u32 true)
  | .shr, .num .u16 true => some (.num .u16 true)
  | .shr, .num .u32 true => some (.num .u32 true)
  | .shr, .num .i32 true => some (.num .i32 true)
  | _, _ => none

/-- The type of `a op b`. -/
def binT (op : BinOp) (a b : T) : Option T :=
  match op with
  | .shl | .shr => (match b.unsigned with
    | true => shiftT op a
    | false => none)
  | _ => (shared a b).bind (arithT op)

/-- The type of `-a`. -/
def negT : T → Option T
  | .int b => given (Nat.ble b 31) (.num .i32 true)
  | .num .i32 true => some (.num .i32 true)
  | _ => none

/-- The type of `a as t`. -/
def castT : T → Ty → Option T
  | .num .u16 true, .usize => some (.num .usize true)
  | .num .u32 true, .usize => some (.num .usize true)
  | .num .u32 true, .i32 => some (.num .i32 true)
  | _, _ => none

/-- The type of `t::try_from(a)`. -/
def tryFromT (t : Ty) (a : T) : Option T :=
  match a.unsigned, t with
  | true, .u8 => some (.result (.num .u8 true) .unit)
  | true, .u16 => some (.result (.num .u16 true) .unit)
  | true, .u32 => some (.result (.num .u32 true) .unit)
  | _, _ => none

/-- The type of `t::from(a)`. -/
def fromT : Ty → T → Option T
  | .u32, .num .u16 true => some (.num .u32 true)
  | _, _ => none

/-- The type of `a.into()`. -/
def intoT : T → Option T
  | .num .u8 true => some (.num .usize true)
  | _ => none

/-- The type of `a.pow(b)`, where `b` has been given the type `u32`. -/
def powT : T → Option T → Option T
  | .num .u16 true, some (.num .u32 true) => some (.num .u16 true)
  | .num .u32 true, some (.num .u32 true) => some (.num .u32 true)
  | .num .i32 true, some (.num .u32 true) => some (.num .i32 true)
  | _, _ => none

/-- The type of `a.unwrap()`. -/
def unwrapT : T → Option T
  | .option a => some a
  | .result a _ => some a
  | _ => none

/-- The type of `a?`; `ret` says what may be returned. -/
def questionT (ret : T → Bool) : T → Option T
  | .result a e => given (ret (.result .never e)) a
  | _ => none

/-- The type of `ty::c(a)`. -/
def variantOfT (ty c : Id) (a : T) : Option T :=
  match ty, c with
  | .Option, .Some => some (.option a)
  | .Result, .Ok => some (.result a .never)
  | .Result, .Err => some (.result .never a)
  | _, _ => (match payload (.named ty) ty c with
    | some (some b) => given (a.sub b) (.named ty)
    | _ => none)

/-- The type of `ty::c`. -/
def variantT (ty c : Id) : Option T :=
  match ty, c with
  | .Option, .None => some (.option .never)
  | _, _ => (match payload (.named ty) ty c with
    | some none => some (.named ty)
    | _ => none)

/-- Do the arguments fit the parameters? -/
def subs : List T → List T → Bool
  | [], [] => true
  | a :: as, b :: bs => a.sub b.loose && subs as bs
  | _, _ => false

/-- The result of the first of the types that fits the arguments. -/
def firstFit (as : List T) : List (List T × T) → Option T
  | [] => none
  | (ps, r) :: l => (match subs as ps with
    | true => some r
    | false => firstFit as l)

/-- The type of a call. -/
def callT (sig : Sig) (o f : Id) (as : List T) : Option T := firstFit as (sig o f)

/-- A type for all elements of an array. -/
def joins : List T → Option T
  | [] => some .never
  | a :: as => (joins as).bind (a.join ·)

/-- Can `write!` show it? -/
def showT (sig : Sig) : Spec → T → Bool
  | .display, .str => true
  | .display, .named x => (match variants x, callT sig x .fmt [.named x] with
    | some _, some .text => true
    | _, _ => false)
  | _, .num .usize true => true
  | _, .num .i32 true => true
  | _, _ => false

/-- Is it `bool`? -/
def isBool : T → Bool
  | .bool => true
  | _ => false

/-- Is it `u32`? -/
def isU32 : Option T → Bool
  | some (.num .u32 true) => true
  | _ => false

/-- Do the fields of a struct expression fit the declaration? -/
def fieldsFit : List (Id × T) → List (Id × T) → Bool
  | [], [] => true
  | (x, a) :: fs, (y, b) :: gs => same x y && a.sub b && fieldsFit fs gs
  | _, _ => false

mutual

/-- The type of an expression. -/
def infer (sig : Sig) (ret : T → Bool) (Γ : TEnv) : Expr → Option T
  | .lit n => some (.int (Nat.log2 n + 1))
  | .litT n t => T.coerce t (.int (Nat.log2 n + 1))
  | .unit => some .unit
  | .bool _ => some .bool
  | .str _ => some .str
  | .var x => assoc Γ x
  | .callClosure x => assoc Γ x
  | .variant ty c => variantT ty c
  | .variantOf ty c e => (infer sig ret Γ e).bind (variantOfT ty c)
  | .call o f es => (inferArgs sig ret Γ es).bind (callT sig o f)
  | .method e f es => (infer sig ret Γ e).bind fun a => (inferArgs sig ret Γ es).bind fun as =>
      a.owner.bind fun o => callT sig o f (a :: as)
  | .field e x => (infer sig ret Γ e).bind fun a => (match a with
    | .named ty => (membersOf ty).bind (assoc · x)
    | _ => none)
  | .bin op a b => (infer sig ret Γ a).bind fun s => (infer sig ret Γ b).bind (binT op s)
  | .neg e => (infer sig ret Γ e).bind negT
  | .matches_ e p => (infer sig ret Γ e).bind fun a => (patT a p).map fun _ => .bool
  | .cast e t => (infer sig ret Γ e).bind (castT · t)
  | .tryFrom t e => (infer sig ret Γ e).bind (tryFromT t)
  | .from_ t e => (infer sig ret Γ e).bind (fromT t)
  | .pow a b => (infer sig ret Γ a).bind fun s => (infer sig ret Γ b).bind fun t => powT s (T.coerce .u32 t)
  | .unwrap e => (infer sig ret Γ e).bind unwrapT
  | .orElse _ _ _ => none
  | .into e => (infer sig ret Γ e).bind intoT
  | .question e => (infer sig ret Γ e).bind (questionT ret)
  | .ret e => (infer sig ret Γ e).bind fun a => given (ret a) .never
  | .ite c a b => (infer sig ret Γ c).bind fun t => (infer sig ret Γ a).bind fun s => (infer sig ret Γ b).bind fun u =>
      (match isBool t with
      | true => s.join u
      | false => none)
  | .match_ e as => (infer sig ret Γ e).bind fun a => inferArms sig ret Γ a a.cases as
  | .block ss => inferStmts sig ret Γ ss
  | .struct ty fs => (inferFields sig ret Γ fs).bind fun gs => (membersOf ty).bind fun ds =>
      given (fieldsFit gs ds) (.named ty)
  | .array es => (inferArgs sig ret Γ es).bind fun as => (joins as).bind fun a =>
      given (Nat.ble as.length 65536) (.array a)
  | .unreachable => some .never
  | .write ps => given (inferPieces sig ret Γ ps) .text

/-- The types of arguments. -/
def inferArgs (sig : Sig) (ret : T → Bool) (Γ : TEnv) : Exprs → Option (List T)
  | .nil => some []
  | .cons e es => (infer sig ret Γ e).bind fun a => (inferArgs sig ret Γ es).map (a :: ·)

/-- The type of a `match` on a value of type `t`; the cases in `cs` are left. -/
def inferArms (sig : Sig) (ret : T → Bool) (Γ : TEnv) (t : T) (cs : List Case) : Arms → Option T
  | .nil => (match cs with
    | [] => some .never
    | _ :: _ => none)
  | .cons p e as => (patT t p).bind fun Δ => (infer sig ret (Δ ++ Γ) e).bind fun a =>
      (inferArms sig ret Γ t (left p cs) as).bind (a.join ·)

/-- The types of the fields of a struct expression. -/
def inferFields (sig : Sig) (ret : T → Bool) (Γ : TEnv) : Fields → Option (List (Id × T))
  | .nil => some []
  | .cons x e fs => (infer sig ret Γ e).bind fun a => (inferFields sig ret Γ fs).map ((x, a) :: ·)

/-- Can all arguments of a format string be shown? -/
def inferPieces (sig : Sig) (ret : T → Bool) (Γ : TEnv) : Pieces → Bool
  | .nil => true
  | .text _ ps => inferPieces sig ret Γ ps
  | .arg s e ps => (match infer sig ret Γ e with
    | some a => showT sig s a && inferPieces sig ret Γ ps
    | none => false)

/-- The type of a block. -/
def inferStmts (sig : Sig) (ret : T → Bool) (Γ : TEnv) : Stmts → Option T
  | .done e => infer sig ret Γ e
  | .let_ x t e ss => (infer sig ret Γ e).bind fun a => (T.coerce t a).bind fun b => inferStmts sig ret ((x, b) :: Γ) ss
  | .letClosure x e ss => (infer sig ret Γ e).bind fun a => inferStmts sig ret ((x, a) :: Γ) ss
  | .letFn _ _ _ _ _ => none
  | .expr e ss => (infer sig ret Γ e).bind fun _ => inferStmts sig ret Γ ss
  | .assert e ss => (infer sig ret Γ e).bind fun a => (match isBool a with
    | true => inferStmts sig ret Γ ss
    | false => none)
  | .assertEq _ _ _ _ => none
  | .forRevEnum idx elt e x b ss => (infer sig ret Γ e).bind fun a => (match a with
    | .array t => (match isU32 (assoc Γ x) &&
        isU32 (infer sig ret ((elt, t) :: (idx, .num .usize true) :: Γ) b) with
      | true => inferStmts sig ret Γ ss
      | false => none)
    | _ => none)

end

/-- The types of the parameters inside the function. -/
def bindT : List (Id × Ty) → List T → Option TEnv
  | [], [] => some []
  | (x, t) :: ps, a :: as => (T.coerce t a.loose).bind fun b => (bindT ps as).map ((x, b) :: ·)
  | _, _ => none

/-- May a value of the type be returned, where the result type is written `t` and is `r`? -/
def mayReturn (t : Ty) (r a : T) : Bool :=
  match T.coerce t a with
  | some b => b.sub r
  | none => false

/-- Does a function have the type? -/
def fnT (sig : Sig) (fn : Fn) (ps : List T) (r : T) : Bool :=
  match bindT fn.params ps with
  | some Γ => (match infer sig (mayReturn fn.ret r) Γ fn.body with
    | some a => mayReturn fn.ret r a
    | none => false)
  | none => false

end Raki.Source
