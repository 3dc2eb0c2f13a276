import Verif.Source.Mono
/-!
# Calls that do not matter

Code that does not call certain functions runs the same whatever those functions are.
-/

namespace Raki.Source

set_option linter.constructorNameAsVariable false

mutual

/-- The expression calls no function with a name in `bad`. -/
def Expr.avoids (bad : Id → Bool) : Expr → Bool
  | .variantOf _ _ e | .field e _ | .neg e | .matches_ e _ | .cast e _ | .tryFrom _ e | .from_ _ e | .unwrap e
  | .into e | .question e | .ret e => e.avoids bad
  | .call _ f as => !bad f && as.avoids bad
  | .method e f as => e.avoids bad && (!bad f && as.avoids bad)
  | .bin _ a b | .pow a b | .orElse a _ b => a.avoids bad && b.avoids bad
  | .ite c a b => c.avoids bad && (a.avoids bad && b.avoids bad)
  | .match_ e as => e.avoids bad && as.avoids bad
  | .block ss => ss.avoids bad
  | .struct _ fs => fs.avoids bad
  | .array es => es.avoids bad
  | .write ps => ps.avoids bad
  | _ => true

/-- The same for arguments. -/
def Exprs.avoids (bad : Id → Bool) : Exprs → Bool
  | .nil => true
  | .cons e es => e.avoids bad && es.avoids bad

/-- The same for arms. -/
def Arms.avoids (bad : Id → Bool) : Arms → Bool
  | .nil => true
  | .cons _ e as => e.avoids bad && as.avoids bad

/-- The same for fields. -/
def Fields.avoids (bad : Id → Bool) : Fields → Bool
  | .nil => true
  | .cons _ e fs => e.avoids bad && fs.avoids bad

/-- The same for format strings. -/
def Pieces.avoids (bad : Id → Bool) : Pieces → Bool
  | .nil => true
  | .text _ ps => ps.avoids bad
  | .arg _ e ps => e.avoids bad && ps.avoids bad

/-- The same for statements. -/
def Stmts.avoids (bad : Id → Bool) : Stmts → Bool
  | .done e => e.avoids bad
  | .let_ _ _ e ss | .letClosure _ e ss | .expr e ss | .assert e ss => e.avoids bad && ss.avoids bad
  | .letFn _ _ _ b ss => b.avoids bad && ss.avoids bad
  | .assertEq _ a b ss => a.avoids bad && (b.avoids bad && ss.avoids bad)
  | .forRevEnum _ _ e _ b ss => e.avoids bad && (b.avoids bad && ss.avoids bad)

end

/-- Calls that agree on all functions but those with a name in `bad`. -/
def Agree (bad : Id → Bool) (c c' : Id → Id → List Val → Out Val) : Prop :=
  ∀ o f args, bad f = false → c o f args = c' o f args

theorem Agree.local_ {bad : Id → Bool} {c c' : Id → Id → List Val → Out Val} (h : Agree bad c c') (o x : Id)
    {g g' : List Val → Out Val} (hg : ∀ args, g args = g' args) : Agree bad (local_ c o x g) (local_ c' o x g') := by
  intro p f args hf
  simp only [Source.local_, hg, h p f args hf]

theorem showVal_agree {bad : Id → Bool} {c c' : Id → Id → List Val → Out Val} (hc : Agree bad c c')
    (hb : bad .fmt = false) (s : Spec) (v : Val) : showVal c s v = showVal c' s v := by
  cases s <;> cases v <;> first
    | rfl
    | simp only [showVal, hc _ _ _ hb]

mutual

theorem eval_agree (md : Build) {bad : Id → Bool} {c c' : Id → Id → List Val → Out Val} (hc : Agree bad c c')
    (hb : bad .fmt = false) (env : Env) : (x : Expr) → x.avoids bad = true → eval md c env x = eval md c' env x
  | .lit _, _ | .litT _ _, _ | .unit, _ | .bool _, _ | .str _, _ | .variant _ _, _ | .unreachable, _ | .var _, _
  | .callClosure _, _ => by simp only [eval]
  | .variantOf _ _ a, h | .neg a, h | .cast a _, h | .tryFrom _ a, h | .from_ _ a, h | .unwrap a, h | .into a, h
  | .question a, h | .ret a, h | .field a _, h | .matches_ a _, h => by
    simp only [Expr.avoids] at h
    simp only [eval, eval_agree md hc hb env a h]
  | .call o f as, h => by
    simp only [Expr.avoids, Bool.and_eq_true, Bool.not_eq_true'] at h
    simp only [eval, evalArgs_agree md hc hb env as h.2, hc o f _ h.1]
  | .method a f as, h => by
    simp only [Expr.avoids, Bool.and_eq_true, Bool.not_eq_true'] at h
    simp only [eval, eval_agree md hc hb env a h.1, evalArgs_agree md hc hb env as h.2.2, hc _ f _ h.2.1]
  | .bin _ a b, h | .pow a b, h => by
    simp only [Expr.avoids, Bool.and_eq_true] at h
    simp only [eval, eval_agree md hc hb env a h.1, eval_agree md hc hb env b h.2]
  | .orElse a x b, h => by
    simp only [Expr.avoids, Bool.and_eq_true] at h
    simp only [eval, eval_agree md hc hb env a h.1, eval_agree md hc hb _ b h.2]
  | .ite a b d, h => by
    simp only [Expr.avoids, Bool.and_eq_true] at h
    simp only [eval, eval_agree md hc hb env a h.1, eval_agree md hc hb env b h.2.1, eval_agree md hc hb env d h.2.2]
  | .match_ a as, h => by
    simp only [Expr.avoids, Bool.and_eq_true] at h
    simp only [eval, eval_agree md hc hb env a h.1, evalArms_agree md hc hb env _ as h.2]
  | .block ss, h => by
    simp only [Expr.avoids] at h
    simp only [eval, evalStmts_agree md hc hb env ss h]
  | .struct _ fs, h => by
    simp only [Expr.avoids] at h
    simp only [eval, evalFields_agree md hc hb env fs h]
  | .array es, h => by
    simp only [Expr.avoids] at h
    simp only [eval, evalArgs_agree md hc hb env es h]
  | .write ps, h => by
    simp only [Expr.avoids] at h
    simp only [eval, evalPieces_agree md hc hb env ps h]

theorem evalArgs_agree (md : Build) {bad : Id → Bool} {c c' : Id → Id → List Val → Out Val} (hc : Agree bad c c')
    (hb : bad .fmt = false) (env : Env) :
    (x : Exprs) → x.avoids bad = true → evalArgs md c env x = evalArgs md c' env x
  | .nil, _ => by simp only [evalArgs]
  | .cons a as, h => by
    simp only [Exprs.avoids, Bool.and_eq_true] at h
    simp only [evalArgs, eval_agree md hc hb env a h.1, evalArgs_agree md hc hb env as h.2]

theorem evalArms_agree (md : Build) {bad : Id → Bool} {c c' : Id → Id → List Val → Out Val} (hc : Agree bad c c')
    (hb : bad .fmt = false) (env : Env) (v : Val) :
    (x : Arms) → x.avoids bad = true → evalArms md c env v x = evalArms md c' env v x
  | .nil, _ => by simp only [evalArms]
  | .cons p a as, h => by
    simp only [Arms.avoids, Bool.and_eq_true] at h
    simp only [evalArms, eval_agree md hc hb _ a h.1, evalArms_agree md hc hb env v as h.2]

theorem evalFields_agree (md : Build) {bad : Id → Bool} {c c' : Id → Id → List Val → Out Val} (hc : Agree bad c c')
    (hb : bad .fmt = false) (env : Env) :
    (x : Fields) → x.avoids bad = true → evalFields md c env x = evalFields md c' env x
  | .nil, _ => by simp only [evalFields]
  | .cons _ a as, h => by
    simp only [Fields.avoids, Bool.and_eq_true] at h
    simp only [evalFields, eval_agree md hc hb env a h.1, evalFields_agree md hc hb env as h.2]

theorem evalPieces_agree (md : Build) {bad : Id → Bool} {c c' : Id → Id → List Val → Out Val} (hc : Agree bad c c')
    (hb : bad .fmt = false) (env : Env) :
    (x : Pieces) → x.avoids bad = true → evalPieces md c env x = evalPieces md c' env x
  | .nil, _ => by simp only [evalPieces]
  | .text _ ps, h => by
    simp only [Pieces.avoids] at h
    simp only [evalPieces, evalPieces_agree md hc hb env ps h]
  | .arg s a ps, h => by
    simp only [Pieces.avoids, Bool.and_eq_true] at h
    simp only [evalPieces, eval_agree md hc hb env a h.1, evalPieces_agree md hc hb env ps h.2,
      showVal_agree hc hb]

theorem evalStmts_agree (md : Build) {bad : Id → Bool} {c c' : Id → Id → List Val → Out Val} (hc : Agree bad c c')
    (hb : bad .fmt = false) (env : Env) :
    (x : Stmts) → x.avoids bad = true → evalStmts md c env x = evalStmts md c' env x
  | .done a, h => by
    simp only [Stmts.avoids] at h
    simp only [evalStmts, eval_agree md hc hb env a h]
  | .let_ _ _ a ss, h => by
    simp only [Stmts.avoids, Bool.and_eq_true] at h
    simp only [evalStmts, eval_agree md hc hb env a h.1, evalStmts_agree md hc hb _ ss h.2]
  | .letClosure _ a ss, h => by
    simp only [Stmts.avoids, Bool.and_eq_true] at h
    simp only [evalStmts, eval_agree md hc hb env a h.1, evalStmts_agree md hc hb _ ss h.2]
  | .expr a ss, h | .assert a ss, h => by
    simp only [Stmts.avoids, Bool.and_eq_true] at h
    simp only [evalStmts, eval_agree md hc hb env a h.1, evalStmts_agree md hc hb _ ss h.2]
  | .letFn o x ps b ss, h => by
    simp only [Stmts.avoids, Bool.and_eq_true] at h
    simp only [evalStmts]
    refine evalStmts_agree md (hc.local_ o x fun args => ?_) hb env ss h.2
    cases bindParams ps args with
    | none => rfl
    | some e => simp only [eval_agree md hc hb _ b h.1]
  | .assertEq _ a b ss, h => by
    simp only [Stmts.avoids, Bool.and_eq_true] at h
    simp only [evalStmts, eval_agree md hc hb env a h.1, eval_agree md hc hb env b h.2.1,
      evalStmts_agree md hc hb _ ss h.2.2]
  | .forRevEnum idx elt a x b ss, h => by
    simp only [Stmts.avoids, Bool.and_eq_true] at h
    have hs : (fun env => eval md c env b) = fun env => eval md c' env b :=
      funext fun e => eval_agree md hc hb e b h.2.1
    simp only [evalStmts, eval_agree md hc hb env a h.1, hs, evalStmts_agree md hc hb _ ss h.2.2]

end

/-- Two programs that differ only in functions with a name in `bad`, and whose other functions do not call those,
run the other functions alike. -/
theorem call_agree {bad : Id → Bool} {fns gns : List Fn} (hb : bad .fmt = false)
    (hf : ∀ o f, bad f = false → find fns o f = find gns o f)
    (ha : ∀ fn ∈ fns, bad fn.name = false → fn.body.avoids bad = true) (md : Build) (n : Nat) :
    Agree bad (call fns md n) (call gns md n) := by
  induction n with
  | zero => intro o f args _; rfl
  | succ n ih =>
    intro o f args h
    simp only [call, ← hf o f h]
    cases hn : find fns o f with
    | none => rfl
    | some fn =>
      obtain ⟨hm, -, rfl⟩ := find_name hn
      simp only [run]
      cases bindParams fn.params args with
      | none => rfl
      | some env => simp only [eval_agree md ih hb env fn.body (ha fn hm h)]

end Raki.Source
