import Verif.Source.Eval
/-!
# Counting the work

How many steps the evaluator of `Verif.Source.Eval` takes: one for every expression, statement and part of a format
string it evaluates, one for every part of the patterns it meets, one for every round of a loop and one for every call.
`bound` computes from the text alone how many there can be.
-/

namespace Raki.Source

set_option linter.constructorNameAsVariable false

/-- The steps of what comes after `x`; nothing comes after a `return` or a panic. -/
def after {α : Type} (x : Out α) (f : α → Nat) : Nat :=
  match x with
  | .val a => f a
  | _ => 0

/-- The parts of a pattern. -/
def patSize : Pat → Nat
  | .ctor1 _ _ p => 1 + patSize p
  | .or p q => patSize p + patSize q
  | _ => 1

/-- The steps that calling the closure `x` takes. -/
def closureSteps : List (Id × Nat) → Id → Nat
  | [], _ => 0
  | (y, n) :: cl, x => if x = y then n else closureSteps cl x

/-- The variables that a pattern binds. -/
def patVars : Pat → List Id
  | .var x => [x]
  | .ctor1 _ _ p => patVars p
  | .or p q => patVars p ++ patVars q
  | _ => []

/-- Variables that are no closures. -/
def plain (xs : List Id) : List (Id × Nat) := xs.map fun x => (x, 0)

/-- The steps of showing an argument of `write!`. -/
def showSteps (cost : Id → Id → List Val → Nat) : Spec → Val → Nat
  | .display, .variant ty c => 1 + cost ty .fmt [.variant ty c]
  | .display, .variantOf ty c v => 1 + cost ty .fmt [.variantOf ty c v]
  | _, _ => 1

/-- The steps of a loop, as `forLoop` runs it; `cost` are the steps of the body. -/
def loopSteps (step : Env → Out Val) (cost : Env → Nat) (idx elt x : Id) : List Val → Nat → Env → Nat
  | [], _, _ => 0
  | v :: vs, n, env =>
    1 + after (Env.get env x) fun a =>
      cost ((elt, .val v) :: (idx, .val (.usize n)) :: env) +
      after (step ((elt, .val v) :: (idx, .val (.usize n)) :: env)) fun b =>
        match a, b with
        | .u32 a, .u32 b => loopSteps step cost idx elt x vs (n + 1) (Env.set env x (.u32 (a ||| b)))
        | _, _ => 0

/-- Steps of calls where the function `x` of `owner` takes `g`. -/
def localSteps (cost : Id → Id → List Val → Nat) (owner x : Id) (g : List Val → Nat) (o f : Id)
    (args : List Val) : Nat :=
  if o = owner ∧ f = x then g args else cost o f args

/-- The steps that remain when the first matching pattern decides: those of `k` or those of `fail`. -/
def pick (v : Val) (env : Env) (p : Pat) (k : Env → Nat) (fail : Nat) : Nat :=
  after (matchPat v env p (fun env => .val (k env)) (.val fail)) id

mutual

/-- Steps of evaluating an expression; `cl` are the steps of the closures. -/
def steps (md : Build) (call : Id → Id → List Val → Out Val) (cost : Id → Id → List Val → Nat) (env : Env)
    (cl : List (Id × Nat)) : Expr → Nat
  | .lit _ | .litT _ _ | .unit | .bool _ | .str _ | .var _ | .variant _ _ | .unreachable => 1
  | .callClosure x => 1 + closureSteps cl x
  | .variantOf _ _ e | .field e _ | .neg e | .cast e _ | .tryFrom _ e | .from_ _ e | .unwrap e | .into e
  | .question e | .ret e => 1 + steps md call cost env cl e
  | .call owner f args => 1 + stepsArgs md call cost env cl args + after (evalArgs md call env args) (cost owner f)
  | .method recv f args =>
    1 + steps md call cost env cl recv + after (eval md call env recv) fun v =>
      stepsArgs md call cost env cl args + after (evalArgs md call env args) fun vs =>
        match typeOf v with
        | some owner => cost owner f (v :: vs)
        | none => 0
  | .bin _ a b | .pow a b =>
    1 + steps md call cost env cl a + after (eval md call env a) fun _ => steps md call cost env cl b
  | .matches_ e p => 1 + steps md call cost env cl e + patSize p
  | .orElse e x b =>
    1 + steps md call cost env cl e + after (eval md call env e) fun v =>
      match v with
      | .variantOf .Result .Err v => steps md call cost ((x, .val v) :: env) ((x, 0) :: cl) b
      | _ => 0
  | .ite c a b =>
    1 + steps md call cost env cl c + after (eval md call env c) fun v =>
      match v with
      | .bool true => steps md call cost env cl a
      | .bool false => steps md call cost env cl b
      | _ => 0
  | .match_ e arms =>
    1 + steps md call cost env cl e + after (eval md call env e) fun v => stepsArms md call cost env cl v arms
  | .block ss => 1 + stepsStmts md call cost env cl ss
  | .struct _ fs => 1 + stepsFields md call cost env cl fs
  | .array es => 1 + stepsArgs md call cost env cl es
  | .write ps => 1 + stepsPieces md call cost env cl ps

/-- Steps of evaluating arguments. -/
def stepsArgs (md : Build) (call : Id → Id → List Val → Out Val) (cost : Id → Id → List Val → Nat) (env : Env)
    (cl : List (Id × Nat)) : Exprs → Nat
  | .nil => 0
  | .cons e es =>
    steps md call cost env cl e + after (eval md call env e) fun _ => stepsArgs md call cost env cl es

/-- Steps of trying the arms of a `match` in turn and evaluating the first that matches. -/
def stepsArms (md : Build) (call : Id → Id → List Val → Out Val) (cost : Id → Id → List Val → Nat) (env : Env)
    (cl : List (Id × Nat)) (v : Val) : Arms → Nat
  | .nil => 0
  | .cons p e as =>
    patSize p + pick v env p (fun env => steps md call cost env (plain (patVars p) ++ cl) e)
      (stepsArms md call cost env cl v as)

/-- Steps of evaluating the fields of a struct. -/
def stepsFields (md : Build) (call : Id → Id → List Val → Out Val) (cost : Id → Id → List Val → Nat) (env : Env)
    (cl : List (Id × Nat)) : Fields → Nat
  | .nil => 0
  | .cons _ e fs =>
    steps md call cost env cl e + after (eval md call env e) fun _ => stepsFields md call cost env cl fs

/-- Steps of writing a format string. -/
def stepsPieces (md : Build) (call : Id → Id → List Val → Out Val) (cost : Id → Id → List Val → Nat) (env : Env)
    (cl : List (Id × Nat)) : Pieces → Nat
  | .nil => 0
  | .text _ ps => 1 + stepsPieces md call cost env cl ps
  | .arg spec e ps =>
    steps md call cost env cl e + after (eval md call env e) fun v =>
      showSteps cost spec v + after (showVal call spec v) fun _ => stepsPieces md call cost env cl ps

/-- Steps of the statements of a block. -/
def stepsStmts (md : Build) (call : Id → Id → List Val → Out Val) (cost : Id → Id → List Val → Nat) (env : Env)
    (cl : List (Id × Nat)) : Stmts → Nat
  | .done e => steps md call cost env cl e
  | .let_ x t e ss =>
    1 + steps md call cost env cl e + after (eval md call env e) fun v =>
      stepsStmts md call cost ((x, .val (coerce t v)) :: env) ((x, 0) :: cl) ss
  | .letClosure x e ss =>
    1 + stepsStmts md call cost ((x, eval md call env e) :: env) ((x, steps md call cost env cl e) :: cl) ss
  | .letFn owner x ps b ss =>
    1 + stepsStmts md (local_ call owner x fun args => match bindParams ps args with
        | some env' => leave .other (eval md call (env' ++ env) b)
        | none => .stuck)
      (localSteps cost owner x fun args => match bindParams ps args with
        | some env' => 1 + steps md call cost (env' ++ env) (plain (env'.map (·.1)) ++ cl) b
        | none => 0) env cl ss
  | .expr e ss =>
    1 + steps md call cost env cl e + after (eval md call env e) fun _ => stepsStmts md call cost env cl ss
  | .assert e ss =>
    1 + steps md call cost env cl e + after (eval md call env e) fun v =>
      match v with
      | .bool true => stepsStmts md call cost env cl ss
      | _ => 0
  | .assertEq eq a b ss =>
    1 + steps md call cost env cl a + after (eval md call env a) fun v =>
      steps md call cost env cl b + after (eval md call env b) fun w =>
        if (eqVal v w == eq) = true then stepsStmts md call cost env cl ss else 0
  | .forRevEnum idx elt e x b ss =>
    1 + steps md call cost env cl e + after (eval md call env e) fun v =>
      match v with
      | .array vs =>
        loopSteps (fun env => eval md call env b)
          (fun env => steps md call cost env ((elt, 0) :: (idx, 0) :: cl) b) idx elt x vs.reverse 0 env +
        after (forLoop (fun env => eval md call env b) idx elt x vs.reverse 0 env) fun env' =>
          stepsStmts md call cost env' cl ss
      | _ => 0

end

/-- Steps of running a function on arguments. -/
def runSteps (md : Build) (call : Id → Id → List Val → Out Val) (cost : Id → Id → List Val → Nat) (fn : Fn)
    (args : List Val) : Nat :=
  match bindParams fn.params args with
  | some env => 1 + steps md call cost env [] fn.body
  | none => 0

/-- Steps of a call, with calls nested at most `depth` deep, as `call` makes it. -/
def callSteps (fns : List Fn) (md : Build) : Nat → Id → Id → List Val → Nat
  | 0, _, _, _ => 0
  | depth + 1, owner, f, args =>
    match find fns owner f with
    | some fn => runSteps md (call fns md depth) (callSteps fns md depth) fn args
    | none => 0

/-! ## The bound -/

/-- What is known of the steps of calls: of a function of a given owner, and of a method by its name. -/
structure Costs where
  /-- the function `f` of `owner` -/
  fn : Id → Id → Nat
  /-- the method `f` of any type -/
  method : Id → Nat

/-- Costs where the function `x` of `owner` takes `n`. -/
def Costs.add (c : Costs) (owner x : Id) (n : Nat) : Costs :=
  { fn := fun o f => if o = owner ∧ f = x then n else c.fn o f
    method := fun f => if f = x then max (c.method f) n else c.method f }

mutual

/-- A bound on the steps of an expression, where `cl` bounds the closures and no array is longer than `len`. -/
def bound (len : Nat) (c : Costs) (cl : List (Id × Nat)) : Expr → Nat
  | .lit _ | .litT _ _ | .unit | .bool _ | .str _ | .var _ | .variant _ _ | .unreachable => 1
  | .callClosure x => 1 + closureSteps cl x
  | .variantOf _ _ e | .field e _ | .neg e | .cast e _ | .tryFrom _ e | .from_ _ e | .unwrap e | .into e
  | .question e | .ret e => 1 + bound len c cl e
  | .call owner f args => 1 + boundArgs len c cl args + c.fn owner f
  | .method recv f args => 1 + bound len c cl recv + (boundArgs len c cl args + c.method f)
  | .bin _ a b | .pow a b => 1 + bound len c cl a + bound len c cl b
  | .matches_ e p => 1 + bound len c cl e + patSize p
  | .orElse e _ b => 1 + bound len c cl e + bound len c cl b
  | .ite e a b => 1 + bound len c cl e + max (bound len c cl a) (bound len c cl b)
  | .match_ e arms => 1 + bound len c cl e + boundArms len c cl arms
  | .block ss => 1 + boundStmts len c cl ss
  | .struct _ fs => 1 + boundFields len c cl fs
  | .array es => 1 + boundArgs len c cl es
  | .write ps => 1 + boundPieces len c cl ps

/-- A bound on the steps of arguments. -/
def boundArgs (len : Nat) (c : Costs) (cl : List (Id × Nat)) : Exprs → Nat
  | .nil => 0
  | .cons e es => bound len c cl e + boundArgs len c cl es

/-- A bound on the steps of arms. -/
def boundArms (len : Nat) (c : Costs) (cl : List (Id × Nat)) : Arms → Nat
  | .nil => 0
  | .cons p e as => patSize p + max (bound len c cl e) (boundArms len c cl as)

/-- A bound on the steps of fields. -/
def boundFields (len : Nat) (c : Costs) (cl : List (Id × Nat)) : Fields → Nat
  | .nil => 0
  | .cons _ e fs => bound len c cl e + boundFields len c cl fs

/-- A bound on the steps of a format string. -/
def boundPieces (len : Nat) (c : Costs) (cl : List (Id × Nat)) : Pieces → Nat
  | .nil => 0
  | .text _ ps => 1 + boundPieces len c cl ps
  | .arg spec e ps =>
    bound len c cl e + ((match spec with | .display => 1 + c.method .fmt | _ => 1) + boundPieces len c cl ps)

/-- A bound on the steps of statements. -/
def boundStmts (len : Nat) (c : Costs) (cl : List (Id × Nat)) : Stmts → Nat
  | .done e => bound len c cl e
  | .let_ _ _ e ss | .expr e ss | .assert e ss => 1 + bound len c cl e + boundStmts len c cl ss
  | .letClosure x e ss => 1 + boundStmts len c ((x, bound len c cl e) :: cl) ss
  | .letFn owner x _ b ss => 1 + boundStmts len (c.add owner x (1 + bound len c cl b)) cl ss
  | .assertEq _ a b ss => 1 + bound len c cl a + (bound len c cl b + boundStmts len c cl ss)
  | .forRevEnum _ _ e _ b ss => 1 + bound len c cl e + (len * (1 + bound len c cl b) + boundStmts len c cl ss)

end

/-- How many there are. -/
def count : Exprs → Nat
  | .nil => 0
  | .cons _ es => 1 + count es

mutual

/-- No array expression has more than `len` elements. -/
def fits (len : Nat) : Expr → Bool
  | .lit _ | .litT _ _ | .unit | .bool _ | .str _ | .var _ | .variant _ _ | .unreachable | .callClosure _ => true
  | .variantOf _ _ e | .field e _ | .neg e | .cast e _ | .tryFrom _ e | .from_ _ e | .unwrap e | .into e
  | .question e | .ret e | .matches_ e _ => fits len e
  | .call _ _ args => fitsArgs len args
  | .method recv _ args => fits len recv && fitsArgs len args
  | .bin _ a b | .pow a b | .orElse a _ b => fits len a && fits len b
  | .ite e a b => fits len e && (fits len a && fits len b)
  | .match_ e arms => fits len e && fitsArms len arms
  | .block ss => fitsStmts len ss
  | .struct _ fs => fitsFields len fs
  | .array es => Nat.ble (count es) len && fitsArgs len es
  | .write ps => fitsPieces len ps

/-- No array expression in the arguments has more than `len` elements. -/
def fitsArgs (len : Nat) : Exprs → Bool
  | .nil => true
  | .cons e es => fits len e && fitsArgs len es

/-- No array expression in the arms has more than `len` elements. -/
def fitsArms (len : Nat) : Arms → Bool
  | .nil => true
  | .cons _ e as => fits len e && fitsArms len as

/-- No array expression in the fields has more than `len` elements. -/
def fitsFields (len : Nat) : Fields → Bool
  | .nil => true
  | .cons _ e fs => fits len e && fitsFields len fs

/-- No array expression in the format string has more than `len` elements. -/
def fitsPieces (len : Nat) : Pieces → Bool
  | .nil => true
  | .text _ ps => fitsPieces len ps
  | .arg _ e ps => fits len e && fitsPieces len ps

/-- No array expression in the statements has more than `len` elements. -/
def fitsStmts (len : Nat) : Stmts → Bool
  | .done e => fits len e
  | .let_ _ _ e ss | .expr e ss | .assert e ss | .letClosure _ e ss | .letFn _ _ _ e ss => fits len e && fitsStmts len ss
  | .assertEq _ a b ss | .forRevEnum _ _ a _ b ss => fits len a && (fits len b && fitsStmts len ss)

end

/-- The costs that a table gives: those of the functions it lists. -/
def costs (t : List (Id × Id × Nat)) : Costs :=
  { fn := fun o f => t.foldr (fun e n => if o = e.1 ∧ f = e.2.1 then e.2.2 else n) 0
    method := fun f => t.foldr (fun e n => if f = e.2.1 then max e.2.2 n else n) 0 }

/-- The table `u` holds for the functions if calls cost what the table `t` says. -/
def covers (len : Nat) (fns : List Fn) (t u : List (Id × Id × Nat)) : Bool :=
  fns.all fun fn => fits len fn.body && Nat.ble (1 + bound len (costs t) [] fn.body) ((costs u).fn fn.owner fn.name)

end Raki.Source
