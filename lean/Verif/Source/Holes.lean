import Verif.Source.Branches
import Verif.Source.Mono
/-!
# Programs with holes

A branch that no run can get past makes a run stuck that reaches it.  A run that does not get stuck with such branches
ends the same way with any other code in their place.
-/

namespace Raki.Source

open Out

set_option linter.constructorNameAsVariable false
set_option linter.unusedSimpArgs false

/-- An expression that no run gets past: a `match` without arms on `()`. -/
def blank : Expr := .match_ .unit .nil

theorem eval_blank (md : Build) (c : Id → Id → List Val → Out Val) (e : Env) : eval md c e blank = .stuck := by
  simp only [blank, eval, evalArms]; rfl

/-- `g` has holes where it differs from `h`. -/
def Below {α : Type} (g h : α → Option Expr) : Prop := ∀ k, g k = h k ∨ g k = some blank

theorem branch_le (md : Build) {g h : Nat → Option Expr} (hg : Below g h) {c c' : Id → Id → List Val → Out Val}
    (hc : CallLe c c') {e e' : Env} (he : EnvLe e e') (k : Nat) {a b : Expr × Nat}
    (ih : Le (eval md c e a.1) (eval md c' e' b.1)) :
    Le (eval md c e (branch g k a).1) (eval md c' e' (branch h k b).1) := by
  simp only [branch]
  rcases hg k with hk | hk
  · rw [hk]
    cases h k with
    | none => exact ih
    | some x => exact eval_le md hc he x
  · rw [hk, Option.getD_some, eval_blank]
    exact stuck_le _

theorem branch_count (g : Nat → Option Expr) (k : Nat) (a : Expr × Nat) : (branch g k a).2 = a.2 := rfl

mutual

theorem Expr.count (g h : Nat → Option Expr) (e : Expr) (k : Nat) : (e.fill g k).2 = (e.fill h k).2 := by
  cases e <;> simp only [Expr.fill, branch]
  case variantOf e => rw [e.count g h]
  case call as => rw [as.count g h]
  case method e _ as => rw [e.count g h, as.count g h]
  case field e _ => rw [e.count g h]
  case bin a b => rw [a.count g h, b.count g h]
  case neg e => rw [e.count g h]
  case matches_ e _ => rw [e.count g h]
  case cast e _ => rw [e.count g h]
  case tryFrom e => rw [e.count g h]
  case from_ e => rw [e.count g h]
  case pow a b => rw [a.count g h, b.count g h]
  case unwrap e => rw [e.count g h]
  case orElse e _ b => rw [e.count g h, b.count g h]
  case into e => rw [e.count g h]
  case question e => rw [e.count g h]
  case ret e => rw [e.count g h]
  case ite c a b => rw [c.count g h, a.count g h, b.count g h]
  case match_ e as => rw [e.count g h, as.count g h]
  case block ss => rw [ss.count g h]
  case struct fs => rw [fs.count g h]
  case array es => rw [es.count g h]
  case write ps => rw [ps.count g h]

theorem Exprs.count (g h : Nat → Option Expr) (e : Exprs) (k : Nat) : (e.fill g k).2 = (e.fill h k).2 := by
  cases e <;> simp only [Exprs.fill, branch]
  case cons e es => rw [e.count g h, es.count g h]

theorem Arms.count (g h : Nat → Option Expr) (e : Arms) (k : Nat) : (e.fill g k).2 = (e.fill h k).2 := by
  cases e <;> simp only [Arms.fill, branch]
  case cons e as => rw [e.count g h, as.count g h]

theorem Fields.count (g h : Nat → Option Expr) (e : Fields) (k : Nat) : (e.fill g k).2 = (e.fill h k).2 := by
  cases e <;> simp only [Fields.fill, branch]
  case cons e fs => rw [e.count g h, fs.count g h]

theorem Pieces.count (g h : Nat → Option Expr) (e : Pieces) (k : Nat) : (e.fill g k).2 = (e.fill h k).2 := by
  cases e <;> simp only [Pieces.fill, branch]
  case text ps => rw [ps.count g h]
  case arg e ps => rw [e.count g h, ps.count g h]

theorem Stmts.count (g h : Nat → Option Expr) (e : Stmts) (k : Nat) : (e.fill g k).2 = (e.fill h k).2 := by
  cases e <;> simp only [Stmts.fill, branch]
  case done e => rw [e.count g h]
  case let_ e ss => rw [e.count g h, ss.count g h]
  case letClosure e ss => rw [e.count g h, ss.count g h]
  case letFn b ss => rw [b.count g h, ss.count g h]
  case expr e ss => rw [e.count g h, ss.count g h]
  case assert e ss => rw [e.count g h, ss.count g h]
  case assertEq a b ss => rw [a.count g h, b.count g h, ss.count g h]
  case forRevEnum e _ b ss => rw [e.count g h, b.count g h, ss.count g h]

end

/-- Unfolds one step of `fill` and of the evaluation, and makes the counters of both programs the same. -/
macro "unfill " g:ident h:ident "[" ls:Lean.Parser.Tactic.simpLemma,* "]" : tactic =>
  `(tactic| simp only [branch_count, Expr.count $g $h, Exprs.count $g $h, Arms.count $g $h, Fields.count $g $h,
    Pieces.count $g $h, Stmts.count $g $h, $ls,*])

mutual

theorem eval_fill (md : Build) {g h : Nat → Option Expr} (hg : Below g h)
    {c c' : Id → Id → List Val → Out Val} (hc : CallLe c c') {e e' : Env} (he : EnvLe e e') :
    (x : Expr) → (k : Nat) →
      Le (eval md c e (x.fill g k).1) (eval md c' e' (x.fill h k).1)
  | .lit _, k | .litT _ _, k | .unit, k | .bool _, k | .str _, k | .variant _ _, k | .unreachable, k => by
    unfill g h [Expr.fill, eval]; exact le_refl _
  | .var x, k | .callClosure x, k => by unfill g h [Expr.fill, eval]; exact he.get x
  | .variantOf _ _ a, k | .neg a, k | .cast a _, k | .tryFrom _ a, k | .from_ _ a, k | .unwrap a, k | .into a, k
  | .question a, k | .ret a, k | .field a _, k => by
    unfill g h [Expr.fill, eval]; exact le_bind (eval_fill md hg hc he a _) fun _ => le_refl _
  | .call o f as, k => by
    unfill g h [Expr.fill, eval]; exact le_bind (evalArgs_fill md hg hc he as _) fun vs => hc o f vs
  | .method a f as, k => by
    unfill g h [Expr.fill, eval]
    refine le_bind (eval_fill md hg hc he a _) fun v => le_bind (evalArgs_fill md hg hc he as _) fun vs => ?_
    split
    · exact hc _ _ _
    · exact le_refl _
  | .bin _ a b, k | .pow a b, k => by
    unfill g h [Expr.fill, eval]
    exact le_bind (eval_fill md hg hc he a _) fun _ => le_bind (eval_fill md hg hc he b _) fun _ => le_refl _
  | .matches_ a p, k => by
    unfill g h [Expr.fill, eval]
    exact le_bind (eval_fill md hg hc he a _) fun v => matchPat_le p v he (fun _ _ _ => le_refl _) (le_refl _)
  | .orElse a x b, k => by
    unfill g h [Expr.fill, eval]
    refine le_bind (eval_fill md hg hc he a _) fun v => ?_
    split
    · exact le_refl _
    · exact leave_le _ (branch_le md hg hc (.cons (le_refl _) he) _ (eval_fill md hg hc (.cons (le_refl _) he) b _))
    · exact le_refl _
  | .ite a b d, k => by
    unfill g h [Expr.fill, eval]
    exact le_bind (eval_fill md hg hc he a _) fun v => cond_le v (branch_le md hg hc he _ (eval_fill md hg hc he b _))
      (branch_le md hg hc he _ (eval_fill md hg hc he d _))
  | .match_ a as, k => by
    unfill g h [Expr.fill, eval]; exact le_bind (eval_fill md hg hc he a _) fun v => evalArms_fill md hg hc he v as _
  | .block ss, k => by unfill g h [Expr.fill, eval]; exact evalStmts_fill md hg hc he ss _
  | .struct _ fs, k => by
    unfill g h [Expr.fill, eval]; exact le_bind (evalFields_fill md hg hc he fs _) fun _ => le_refl _
  | .array es, k => by unfill g h [Expr.fill, eval]; exact le_bind (evalArgs_fill md hg hc he es _) fun _ => le_refl _
  | .write ps, k => by
    unfill g h [Expr.fill, eval]; exact le_bind (evalPieces_fill md hg hc he ps _) fun _ => le_refl _

theorem evalArgs_fill (md : Build) {g h : Nat → Option Expr} (hg : Below g h)
    {c c' : Id → Id → List Val → Out Val} (hc : CallLe c c') {e e' : Env}
    (he : EnvLe e e') : (x : Exprs) → (k : Nat) →
      Le (evalArgs md c e (x.fill g k).1) (evalArgs md c' e' (x.fill h k).1)
  | .nil, k => by unfill g h [Exprs.fill, evalArgs]; exact le_refl _
  | .cons a as, k => by
    unfill g h [Exprs.fill, evalArgs]
    exact le_bind (eval_fill md hg hc he a _) fun _ => le_bind (evalArgs_fill md hg hc he as _) fun _ => le_refl _

theorem evalArms_fill (md : Build) {g h : Nat → Option Expr} (hg : Below g h)
    {c c' : Id → Id → List Val → Out Val} (hc : CallLe c c') {e e' : Env}
    (he : EnvLe e e') (v : Val) : (x : Arms) → (k : Nat) →
      Le (evalArms md c e v (x.fill g k).1) (evalArms md c' e' v (x.fill h k).1)
  | .nil, k => by unfill g h [Arms.fill, evalArms]; exact le_refl _
  | .cons p a as, k => by
    unfill g h [Arms.fill, evalArms]
    exact matchPat_le p v he (fun _ _ h => branch_le md hg hc h _ (eval_fill md hg hc h a _))
      (evalArms_fill md hg hc he v as _)

theorem evalFields_fill (md : Build) {g h : Nat → Option Expr} (hg : Below g h)
    {c c' : Id → Id → List Val → Out Val} (hc : CallLe c c') {e e' : Env}
    (he : EnvLe e e') : (x : Fields) → (k : Nat) →
      Le (evalFields md c e (x.fill g k).1) (evalFields md c' e' (x.fill h k).1)
  | .nil, k => by unfill g h [Fields.fill, evalFields]; exact le_refl _
  | .cons _ a as, k => by
    unfill g h [Fields.fill, evalFields]
    exact le_bind (eval_fill md hg hc he a _) fun _ => le_bind (evalFields_fill md hg hc he as _) fun _ => le_refl _

theorem evalPieces_fill (md : Build) {g h : Nat → Option Expr} (hg : Below g h)
    {c c' : Id → Id → List Val → Out Val} (hc : CallLe c c') {e e' : Env}
    (he : EnvLe e e') : (x : Pieces) → (k : Nat) →
      Le (evalPieces md c e (x.fill g k).1) (evalPieces md c' e' (x.fill h k).1)
  | .nil, k => by unfill g h [Pieces.fill, evalPieces]; exact le_refl _
  | .text _ ps, k => by
    unfill g h [Pieces.fill, evalPieces]; exact le_bind (evalPieces_fill md hg hc he ps _) fun _ => le_refl _
  | .arg s a ps, k => by
    unfill g h [Pieces.fill, evalPieces]
    exact le_bind (eval_fill md hg hc he a _) fun v => le_bind (showVal_le hc s v) fun _ =>
      le_bind (evalPieces_fill md hg hc he ps _) fun _ => le_refl _

theorem evalStmts_fill (md : Build) {g h : Nat → Option Expr} (hg : Below g h)
    {c c' : Id → Id → List Val → Out Val} (hc : CallLe c c') {e e' : Env}
    (he : EnvLe e e') : (x : Stmts) → (k : Nat) →
      Le (evalStmts md c e (x.fill g k).1) (evalStmts md c' e' (x.fill h k).1)
  | .done a, k => by unfill g h [Stmts.fill, evalStmts]; exact eval_fill md hg hc he a _
  | .let_ _ _ a ss, k => by
    unfill g h [Stmts.fill, evalStmts]
    exact le_bind (eval_fill md hg hc he a _) fun _ => evalStmts_fill md hg hc (.cons (le_refl _) he) ss _
  | .letClosure _ a ss, k => by
    unfill g h [Stmts.fill, evalStmts]; exact evalStmts_fill md hg hc (.cons (eval_fill md hg hc he a _) he) ss _
  | .letFn o x ps b ss, k => by
    unfill g h [Stmts.fill, evalStmts]
    refine evalStmts_fill md hg (local_le hc o x fun args => ?_) he ss _
    split
    · exact leave_le _ (eval_fill md hg hc (he.append _) b _)
    · exact le_refl _
  | .expr a ss, k => by
    unfill g h [Stmts.fill, evalStmts]
    exact le_bind (eval_fill md hg hc he a _) fun _ => evalStmts_fill md hg hc he ss _
  | .assert a ss, k => by
    unfill g h [Stmts.fill, evalStmts]
    exact le_bind (eval_fill md hg hc he a _) fun v => cond_le v (evalStmts_fill md hg hc he ss _) (le_refl _)
  | .assertEq _ a b ss, k => by
    unfill g h [Stmts.fill, evalStmts]
    exact le_bind (eval_fill md hg hc he a _) fun v => le_bind (eval_fill md hg hc he b _) fun w =>
      cond_le _ (evalStmts_fill md hg hc he ss _) (le_refl _)
  | .forRevEnum idx elt a x b ss, k => by
    unfill g h [Stmts.fill, evalStmts]
    refine le_bind (eval_fill md hg hc he a _) fun v => ?_
    split
    · rename_i vs
      rcases forLoop_le (fun _ _ h => eval_fill md hg hc h b _) idx elt x vs.reverse 0 he with
        ⟨f, f', h1, h2, h⟩ | h | ⟨h, h'⟩
      · rw [h1, h2]; exact evalStmts_fill md hg hc h ss _
      · rw [h]; exact stuck_le _
      · rw [← h']
        generalize forLoop _ _ _ _ _ _ _ = o at h
        cases o with
        | val f => exact (h f rfl).elim
        | ret v => exact le_refl _
        | panic => exact le_refl _
        | stuck => exact le_refl _
    · exact le_refl _

end

/-- More code for holes and more depth change no run that is not stuck. -/
theorem call_fill {g h : Branch → Option Expr} (hg : Below g h) (fns : List Fn) (md : Build) {n m : Nat} (hn : n ≤ m) :
    CallLe (call (fill g fns) md n) (call (fill h fns) md m) := by
  induction n generalizing m with
  | zero => intro o f args; exact stuck_le _
  | succ n ih =>
    obtain ⟨m, rfl⟩ : ∃ k, m = k + 1 := ⟨m - 1, by omega⟩
    intro o f args
    simp only [call, find_fill]
    cases find fns o f with
    | none => exact stuck_le _
    | some fn =>
      simp only [Option.map_some, Fn.fill, run]
      split
      · exact leave_le _ (eval_fill md (fun k => hg _) (ih (by omega)) (EnvLe.refl _) _ _)
      · exact le_refl _

end Raki.Source
