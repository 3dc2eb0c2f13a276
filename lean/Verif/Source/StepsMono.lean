import Verif.Source.Steps
import Verif.Source.Mono
/-!
# More depth takes no more steps

A run that is not stuck takes the same steps when calls may nest deeper.
-/

namespace Raki.Source

set_option linter.constructorNameAsVariable false

open Out

theorem ne_bind {α β : Type} {x : Out α} {f : α → Out β} (h : (x >>= f) ≠ .stuck) :
    x ≠ .stuck ∧ ∀ a, x = .val a → f a ≠ .stuck := by
  constructor
  · rintro rfl; exact h rfl
  · rintro a rfl; exact h

theorem ne_leave {t : Ty} {x : Out Val} (h : leave t x ≠ .stuck) : x ≠ .stuck := by
  rintro rfl; exact h rfl

theorem after_eq {α : Type} {x y : Out α} (hl : Le x y) (hx : x ≠ .stuck) {f g : α → Nat}
    (h : ∀ a, x = .val a → f a = g a) : after x f = after y g := by
  rcases hl with rfl | rfl
  · exact (hx rfl).elim
  · cases x with
    | val a => exact h a rfl
    | ret v => rfl
    | panic => rfl
    | stuck => rfl

/-- Calls that are not stuck take the same steps. -/
def CostEq (c : Id → Id → List Val → Out Val) (k k' : Id → Id → List Val → Nat) : Prop :=
  ∀ o f args, c o f args ≠ .stuck → k o f args = k' o f args

/-- Closures that are not stuck take the same steps. -/
def ClEq (e : Env) (cl cl' : List (Id × Nat)) : Prop :=
  ∀ x, Env.get e x ≠ .stuck → closureSteps cl x = closureSteps cl' x

theorem ClEq.cons {e : Env} {cl cl' : List (Id × Nat)} (h : ClEq e cl cl') (x : Id) {o : Out Val} {m n : Nat}
    (hm : o ≠ .stuck → m = n) : ClEq ((x, o) :: e) ((x, m) :: cl) ((x, n) :: cl') := by
  intro y hy
  simp only [closureSteps]
  simp only [Env.get] at hy
  split
  · rename_i hx; rw [if_pos hx] at hy; exact hm hy
  · rename_i hx; rw [if_neg hx] at hy; exact h y hy

theorem closureSteps_plain (xs : List Id) (cl : List (Id × Nat)) (x : Id) :
    closureSteps (plain xs ++ cl) x = if x ∈ xs then 0 else closureSteps cl x := by
  induction xs with
  | nil => simp [plain]
  | cons y xs ih =>
    simp only [plain, List.map_cons, List.cons_append, closureSteps, List.mem_cons] at ih ⊢
    split
    · rename_i h; simp [h]
    · rename_i h; rw [ih]; simp [h]

theorem ClEq.plain {e f : Env} {cl cl' : List (Id × Nat)} (h : ClEq e cl cl') {xs : List Id}
    (hf : ∀ x, x ∉ xs → Env.get f x = Env.get e x) : ClEq f (plain xs ++ cl) (plain xs ++ cl') := by
  intro x hx
  rw [closureSteps_plain, closureSteps_plain]
  split
  · rfl
  · rename_i hn; rw [hf x hn] at hx; exact h x hx

theorem get_append (p e : Env) (x : Id) (h : x ∉ p.map (·.1)) : Env.get (p ++ e) x = Env.get e x := by
  induction p with
  | nil => rfl
  | cons a p ih =>
    obtain ⟨y, o⟩ := a
    simp only [List.map_cons, List.mem_cons, not_or] at h
    simp only [List.cons_append, Env.get, if_neg h.1]
    exact ih h.2

theorem get_set (e : Env) (x y : Id) (v : Val) (h : Env.get (Env.set e x v) y ≠ .stuck) :
    y = x ∨ Env.get e y ≠ .stuck := by
  by_cases hx : y = x
  · exact .inl hx
  · right
    induction e with
    | nil => exact h
    | cons a e ih =>
      obtain ⟨z, o⟩ := a
      simp only [Env.set] at h
      split at h
      · rename_i hz
        have hy : ¬ y = z := fun e => hx (e.trans hz.symm)
        simp only [Env.get, if_neg hy] at h ⊢
        exact h
      · simp only [Env.get] at h ⊢
        split
        · rename_i hy; rw [if_pos hy] at h; exact h
        · rename_i hy; rw [if_neg hy] at h; exact ih h

theorem ClEq.set {e : Env} {cl cl' : List (Id × Nat)} (h : ClEq e cl cl') {x : Id} (hx : Env.get e x ≠ .stuck)
    (v : Val) : ClEq (Env.set e x v) cl cl' := by
  intro y hy
  rcases get_set e x y v hy with rfl | hs
  · exact h _ hx
  · exact h _ hs

theorem matchPat_eq {α : Type} (xs : List Id) (p : Pat) (hp : ∀ x ∈ patVars p, x ∈ xs) (v : Val) {e e' : Env}
    (he : EnvLe e e') {k : Env → Out α} {a : Out α} {s s' : Env → Out Nat} {n n' : Out Nat}
    (hk : ∀ f f', EnvLe f f' → (∀ x, x ∉ xs → Env.get f x = Env.get e x) → k f ≠ .stuck → s f = s' f')
    (ha : a ≠ .stuck → n = n') (h : matchPat v e p k a ≠ .stuck) :
    matchPat v e p s n = matchPat v e' p s' n' := by
  induction p generalizing v a n n' with
  | wild => exact hk _ _ he (fun _ _ => rfl) h
  | var x =>
    refine hk _ _ (.cons (le_refl _) he) (fun y hy => ?_) h
    have : ¬ y = x := fun e => hy (e ▸ hp x (by simp [patVars]))
    simp only [Env.get, if_neg this]
  | lit m =>
    simp only [matchPat] at h ⊢
    split
    · rename_i hu
      rw [hu] at h
      simp only at h
      split
      · rename_i hm; rw [if_pos hm] at h; exact hk _ _ he (fun _ _ => rfl) h
      · rename_i hm; rw [if_neg hm] at h; exact ha h
    · rfl
  | range lo hi =>
    simp only [matchPat] at h ⊢
    split
    · rename_i hu
      rw [hu] at h
      simp only at h
      split
      · rename_i hm; rw [if_pos hm] at h; exact hk _ _ he (fun _ _ => rfl) h
      · rename_i hm; rw [if_neg hm] at h; exact ha h
    · rfl
  | ctor ty c =>
    cases v <;> simp only [matchPat] at h ⊢
    · split
      · rename_i hm
        rw [if_pos hm] at h
        split
        · rename_i hm; rw [if_pos hm] at h; exact hk _ _ he (fun _ _ => rfl) h
        · rename_i hm; rw [if_neg hm] at h; exact ha h
      · rfl
    · split
      · rename_i hm; rw [if_pos hm] at h; exact ha h
      · rfl
  | ctor1 ty c p ih =>
    cases v <;> simp only [matchPat] at h ⊢
    · split
      · rename_i hm; rw [if_pos hm] at h; exact ha h
      · rfl
    · split
      · rename_i hm
        rw [if_pos hm] at h
        split
        · rename_i hm; rw [if_pos hm] at h; exact ih (by simpa only [patVars] using hp) _ ha h
        · rename_i hm; rw [if_neg hm] at h; exact ha h
      · rfl
  | or p q ihp ihq =>
    simp only [patVars, List.mem_append] at hp
    exact ihp (fun x hx => hp x (.inl hx)) v (fun hn => ihq (fun x hx => hp x (.inr hx)) v ha hn) h

theorem showSteps_eq {c : Id → Id → List Val → Out Val} {k k' : Id → Id → List Val → Nat} (hk : CostEq c k k')
    (s : Spec) (v : Val) (h : showVal c s v ≠ .stuck) : showSteps k s v = showSteps k' s v := by
  cases s <;> cases v <;> simp only [showSteps] <;> first
    | rfl
    | (simp only [showVal] at h; rw [hk _ _ _ (ne_bind h).1])

theorem loopSteps_eq {step step' : Env → Out Val} {k k' : Env → Nat} {cl cl' : List (Id × Nat)} (idx elt x : Id)
    (hs : ∀ e e', EnvLe e e' → Le (step e) (step' e'))
    (hk : ∀ e e', EnvLe e e' → ClEq e ((elt, 0) :: (idx, 0) :: cl) ((elt, 0) :: (idx, 0) :: cl') →
      step e ≠ .stuck → k e = k' e')
    (vs : List Val) (n : Nat) {e e' : Env} (he : EnvLe e e') (hl : ClEq e cl cl')
    (h : forLoop step idx elt x vs n e ≠ .stuck) :
    loopSteps step k idx elt x vs n e = loopSteps step' k' idx elt x vs n e' ∧
    ∀ f, forLoop step idx elt x vs n e = .val f → ClEq f cl cl' := by
  induction vs generalizing n e e' with
  | nil => exact ⟨rfl, fun f hf => by cases hf; exact hl⟩
  | cons v vs ih =>
    have he' : EnvLe ((elt, .val v) :: (idx, .val (.usize n)) :: e) ((elt, .val v) :: (idx, .val (.usize n)) :: e') :=
      .cons (le_refl _) (.cons (le_refl _) he)
    have hl' := (hl.cons idx (o := .val (.usize n)) (m := 0) (fun _ => rfl)).cons elt (o := .val v) (m := 0)
      (fun _ => rfl)
    simp only [forLoop] at h ⊢
    obtain ⟨h1, h⟩ := ne_bind h
    simp only [loopSteps]
    constructor
    · refine congrArg (1 + ·) (after_eq (he.get x) h1 fun a ha => ?_)
      obtain ⟨h2, h⟩ := ne_bind (h a ha)
      refine congr (congrArg HAdd.hAdd (hk _ _ he' hl' h2)) (after_eq (hs _ _ he') h2 fun b hb => ?_)
      have h := h b hb
      split
      · exact (ih _ (he.set _ _) (hl.set h1 _) h).1
      · rfl
    · intro f hf
      cases ha : Env.get e x with
      | val a =>
        rw [ha] at hf
        obtain ⟨h2, h⟩ := ne_bind (h a ha)
        cases hb : step ((elt, .val v) :: (idx, .val (.usize n)) :: e) with
        | val b =>
          simp only [bind, Out.bind, hb] at hf
          have h := h b hb
          split at hf
          · exact (ih _ (he.set _ _) (hl.set h1 _) h).2 f hf
          · cases hf
        | ret _ => simp only [bind, Out.bind, hb] at hf; cases hf
        | panic => simp only [bind, Out.bind, hb] at hf; cases hf
        | stuck => exact (h2 hb).elim
      | ret _ => rw [ha] at hf; cases hf
      | panic => rw [ha] at hf; cases hf
      | stuck => exact (h1 ha).elim

theorem localSteps_eq {c : Id → Id → List Val → Out Val} {k k' : Id → Id → List Val → Nat} (hk : CostEq c k k')
    (o x : Id) {g : List Val → Out Val} {s s' : List Val → Nat} (hs : ∀ args, g args ≠ .stuck → s args = s' args) :
    CostEq (local_ c o x g) (localSteps k o x s) (localSteps k' o x s') := by
  intro p f args h
  simp only [local_] at h
  simp only [localSteps]
  split
  · rename_i hp; rw [if_pos hp] at h; exact hs args h
  · rename_i hp; rw [if_neg hp] at h; exact hk p f args h

theorem add3 {a a' b b' : Nat} (ha : a = a') (hb : b = b') : 1 + a + b = 1 + a' + b' := by rw [ha, hb]

section

variable (md : Build)

mutual

theorem steps_eq {c c' : Id → Id → List Val → Out Val} (hc : CallLe c c') {k k' : Id → Id → List Val → Nat}
    (hk : CostEq c k k') {e e' : Env} (he : EnvLe e e') {cl cl' : List (Id × Nat)} (hl : ClEq e cl cl') :
    (x : Expr) → eval md c e x ≠ .stuck → steps md c k e cl x = steps md c' k' e' cl' x
  | .lit _, _ | .litT _ _, _ | .unit, _ | .bool _, _ | .str _, _ | .var _, _ | .variant _ _, _ | .unreachable, _ => by
    simp only [steps]
  | .callClosure x, h => by simp only [eval] at h; simp only [steps, hl x h]
  | .variantOf _ _ a, h | .neg a, h | .cast a _, h | .tryFrom _ a, h | .from_ _ a, h | .unwrap a, h | .into a, h
  | .question a, h | .ret a, h | .field a _, h => by
    simp only [eval] at h; simp only [steps, steps_eq hc hk he hl a (ne_bind h).1]
  | .call o f as, h => by
    simp only [eval] at h; simp only [steps]
    obtain ⟨h1, h⟩ := ne_bind h
    exact add3 (stepsArgs_eq hc hk he hl as h1) (after_eq (evalArgs_le md hc he as) h1 fun vs hv => hk o f vs (h vs hv))
  | .method a f as, h => by
    simp only [eval] at h; simp only [steps]
    obtain ⟨h1, h⟩ := ne_bind h
    refine add3 (steps_eq hc hk he hl a h1) (after_eq (eval_le md hc he a) h1 fun v hv => ?_)
    obtain ⟨h2, h⟩ := ne_bind (h v hv)
    refine congr (congrArg HAdd.hAdd (stepsArgs_eq hc hk he hl as h2))
      (after_eq (evalArgs_le md hc he as) h2 fun vs hs => ?_)
    have h := h vs hs
    split
    · rename_i ht; rw [ht] at h; exact hk _ _ _ h
    · rfl
  | .bin _ a b, h | .pow a b, h => by
    simp only [eval] at h; simp only [steps]
    obtain ⟨h1, h⟩ := ne_bind h
    exact add3 (steps_eq hc hk he hl a h1) (after_eq (eval_le md hc he a) h1 fun v hv =>
      steps_eq hc hk he hl b (ne_bind (h v hv)).1)
  | .matches_ a p, h => by
    simp only [eval] at h; simp only [steps, steps_eq hc hk he hl a (ne_bind h).1]
  | .orElse a x b, h => by
    simp only [eval] at h; simp only [steps]
    obtain ⟨h1, h⟩ := ne_bind h
    refine add3 (steps_eq hc hk he hl a h1) (after_eq (eval_le md hc he a) h1 fun v hv => ?_)
    have h := h v hv
    split
    · exact steps_eq hc hk (.cons (le_refl _) he) (hl.cons x fun _ => rfl) b (ne_leave h)
    · rfl
  | .ite a b d, h => by
    simp only [eval] at h; simp only [steps]
    obtain ⟨h1, h⟩ := ne_bind h
    refine add3 (steps_eq hc hk he hl a h1) (after_eq (eval_le md hc he a) h1 fun v hv => ?_)
    have h := h v hv
    split
    · exact steps_eq hc hk he hl b h
    · exact steps_eq hc hk he hl d h
    · rfl
  | .match_ a as, h => by
    simp only [eval] at h; simp only [steps]
    obtain ⟨h1, h⟩ := ne_bind h
    exact add3 (steps_eq hc hk he hl a h1) (after_eq (eval_le md hc he a) h1 fun v hv =>
      stepsArms_eq hc hk he hl v as (h v hv))
  | .block ss, h => by simp only [eval] at h; simp only [steps, stepsStmts_eq hc hk he hl ss h]
  | .struct _ fs, h => by simp only [eval] at h; simp only [steps, stepsFields_eq hc hk he hl fs (ne_bind h).1]
  | .array es, h => by simp only [eval] at h; simp only [steps, stepsArgs_eq hc hk he hl es (ne_bind h).1]
  | .write ps, h => by simp only [eval] at h; simp only [steps, stepsPieces_eq hc hk he hl ps (ne_bind h).1]

theorem stepsArgs_eq {c c' : Id → Id → List Val → Out Val} (hc : CallLe c c') {k k' : Id → Id → List Val → Nat}
    (hk : CostEq c k k') {e e' : Env} (he : EnvLe e e') {cl cl' : List (Id × Nat)} (hl : ClEq e cl cl') :
    (x : Exprs) → evalArgs md c e x ≠ .stuck → stepsArgs md c k e cl x = stepsArgs md c' k' e' cl' x
  | .nil, _ => by simp only [stepsArgs]
  | .cons a as, h => by
    simp only [evalArgs] at h; simp only [stepsArgs]
    obtain ⟨h1, h⟩ := ne_bind h
    exact congr (congrArg HAdd.hAdd (steps_eq hc hk he hl a h1)) (after_eq (eval_le md hc he a) h1 fun v hv =>
      stepsArgs_eq hc hk he hl as (ne_bind (h v hv)).1)

theorem stepsArms_eq {c c' : Id → Id → List Val → Out Val} (hc : CallLe c c') {k k' : Id → Id → List Val → Nat}
    (hk : CostEq c k k') {e e' : Env} (he : EnvLe e e') {cl cl' : List (Id × Nat)} (hl : ClEq e cl cl') (v : Val) :
    (x : Arms) → evalArms md c e v x ≠ .stuck → stepsArms md c k e cl v x = stepsArms md c' k' e' cl' v x
  | .nil, _ => by simp only [stepsArms]
  | .cons p a as, h => by
    simp only [evalArms] at h; simp only [stepsArms]
    refine congrArg (patSize p + ·) (congrArg (after · id) ?_)
    exact matchPat_eq (patVars p) p (fun _ h => h) v he
      (fun f f' hf hg hn => congrArg Out.val (steps_eq hc hk hf (hl.plain hg) a hn))
      (fun hn => congrArg Out.val (stepsArms_eq hc hk he hl v as hn)) h

theorem stepsFields_eq {c c' : Id → Id → List Val → Out Val} (hc : CallLe c c') {k k' : Id → Id → List Val → Nat}
    (hk : CostEq c k k') {e e' : Env} (he : EnvLe e e') {cl cl' : List (Id × Nat)} (hl : ClEq e cl cl') :
    (x : Fields) → evalFields md c e x ≠ .stuck → stepsFields md c k e cl x = stepsFields md c' k' e' cl' x
  | .nil, _ => by simp only [stepsFields]
  | .cons _ a as, h => by
    simp only [evalFields] at h; simp only [stepsFields]
    obtain ⟨h1, h⟩ := ne_bind h
    exact congr (congrArg HAdd.hAdd (steps_eq hc hk he hl a h1)) (after_eq (eval_le md hc he a) h1 fun v hv =>
      stepsFields_eq hc hk he hl as (ne_bind (h v hv)).1)

theorem stepsPieces_eq {c c' : Id → Id → List Val → Out Val} (hc : CallLe c c') {k k' : Id → Id → List Val → Nat}
    (hk : CostEq c k k') {e e' : Env} (he : EnvLe e e') {cl cl' : List (Id × Nat)} (hl : ClEq e cl cl') :
    (x : Pieces) → evalPieces md c e x ≠ .stuck → stepsPieces md c k e cl x = stepsPieces md c' k' e' cl' x
  | .nil, _ => by simp only [stepsPieces]
  | .text _ ps, h => by
    simp only [evalPieces] at h; simp only [stepsPieces, stepsPieces_eq hc hk he hl ps (ne_bind h).1]
  | .arg s a ps, h => by
    simp only [evalPieces] at h; simp only [stepsPieces]
    obtain ⟨h1, h⟩ := ne_bind h
    refine congr (congrArg HAdd.hAdd (steps_eq hc hk he hl a h1)) (after_eq (eval_le md hc he a) h1 fun v hv => ?_)
    obtain ⟨h2, h⟩ := ne_bind (h v hv)
    exact congr (congrArg HAdd.hAdd (showSteps_eq hk s v h2)) (after_eq (showVal_le hc s v) h2 fun t ht =>
      stepsPieces_eq hc hk he hl ps (ne_bind (h t ht)).1)

theorem stepsStmts_eq {c c' : Id → Id → List Val → Out Val} (hc : CallLe c c') {k k' : Id → Id → List Val → Nat}
    (hk : CostEq c k k') {e e' : Env} (he : EnvLe e e') {cl cl' : List (Id × Nat)} (hl : ClEq e cl cl') :
    (x : Stmts) → evalStmts md c e x ≠ .stuck → stepsStmts md c k e cl x = stepsStmts md c' k' e' cl' x
  | .done a, h => by simp only [evalStmts] at h; simp only [stepsStmts]; exact steps_eq hc hk he hl a h
  | .let_ x _ a ss, h => by
    simp only [evalStmts] at h; simp only [stepsStmts]
    obtain ⟨h1, h⟩ := ne_bind h
    exact add3 (steps_eq hc hk he hl a h1) (after_eq (eval_le md hc he a) h1 fun v hv =>
      stepsStmts_eq hc hk (.cons (le_refl _) he) (hl.cons x fun _ => rfl) ss (h v hv))
  | .letClosure x a ss, h => by
    simp only [evalStmts] at h; simp only [stepsStmts]
    exact congrArg (1 + ·) (stepsStmts_eq hc hk (.cons (eval_le md hc he a) he)
      (hl.cons x fun hn => steps_eq hc hk he hl a hn) ss h)
  | .letFn o x ps b ss, h => by
    simp only [evalStmts] at h; simp only [stepsStmts]
    refine congrArg (1 + ·) (stepsStmts_eq (local_le hc o x fun args => ?_) (localSteps_eq hk o x fun args hn => ?_)
      he hl ss h)
    · split
      · exact leave_le _ (eval_le md hc (he.append _) b)
      · exact le_refl _
    · split
      · rename_i hb
        rw [hb] at hn
        exact congrArg (1 + ·) (steps_eq hc hk (he.append _) (hl.plain fun y hy => get_append _ _ y hy) b (ne_leave hn))
      · rfl
  | .expr a ss, h => by
    simp only [evalStmts] at h; simp only [stepsStmts]
    obtain ⟨h1, h⟩ := ne_bind h
    exact add3 (steps_eq hc hk he hl a h1) (after_eq (eval_le md hc he a) h1 fun v hv =>
      stepsStmts_eq hc hk he hl ss (h v hv))
  | .assert a ss, h => by
    simp only [evalStmts] at h; simp only [stepsStmts]
    obtain ⟨h1, h⟩ := ne_bind h
    refine add3 (steps_eq hc hk he hl a h1) (after_eq (eval_le md hc he a) h1 fun v hv => ?_)
    have h := h v hv
    split
    · exact stepsStmts_eq hc hk he hl ss h
    · rfl
  | .assertEq _ a b ss, h => by
    simp only [evalStmts] at h; simp only [stepsStmts]
    obtain ⟨h1, h⟩ := ne_bind h
    refine add3 (steps_eq hc hk he hl a h1) (after_eq (eval_le md hc he a) h1 fun v hv => ?_)
    obtain ⟨h2, h⟩ := ne_bind (h v hv)
    refine congr (congrArg HAdd.hAdd (steps_eq hc hk he hl b h2)) (after_eq (eval_le md hc he b) h2 fun w hw => ?_)
    have h := h w hw
    split
    · rename_i ht; rw [ht] at h; exact stepsStmts_eq hc hk he hl ss h
    · rfl
  | .forRevEnum idx elt a x b ss, h => by
    simp only [evalStmts] at h; simp only [stepsStmts]
    obtain ⟨h1, h⟩ := ne_bind h
    refine add3 (steps_eq hc hk he hl a h1) (after_eq (eval_le md hc he a) h1 fun v hv => ?_)
    have h := h v hv
    split
    · rename_i vs
      simp only at h
      obtain ⟨h2, h⟩ := ne_bind h
      have hloop := loopSteps_eq idx elt x (fun _ _ h => eval_le md hc h b)
        (fun _ _ h h' hn => steps_eq hc hk h h' b hn) vs.reverse 0 he hl h2
      refine congr (congrArg HAdd.hAdd hloop.1) ?_
      rcases forLoop_le (fun _ _ h => eval_le md hc h b) idx elt x vs.reverse 0 he with
        ⟨f, f', h3, h4, hf⟩ | h3 | ⟨h3, h4⟩
      · rw [h3, h4]; exact stepsStmts_eq hc hk hf (hloop.2 f h3) ss (h f h3)
      · exact (h2 h3).elim
      · rw [← h4]
        generalize forLoop _ _ _ _ _ _ _ = o at h3
        cases o with
        | val f => exact (h3 f rfl).elim
        | ret v => rfl
        | panic => rfl
        | stuck => rfl
    · rfl

end

end

/-- A call that is not stuck takes the same steps when calls may nest deeper. -/
theorem callSteps_eq {fns gns : List Fn} (hs : Sub fns gns) (md : Build) {n m : Nat} (h : n ≤ m) :
    CostEq (call fns md n) (callSteps fns md n) (callSteps gns md m) := by
  induction n generalizing m with
  | zero => intro o f args hn; exact (hn rfl).elim
  | succ n ih =>
    obtain ⟨m, rfl⟩ : ∃ k, m = k + 1 := ⟨m - 1, by omega⟩
    intro o f args hn
    simp only [call] at hn
    simp only [callSteps]
    cases hf : find fns o f with
    | none => rw [hf] at hn; exact (hn rfl).elim
    | some fn =>
      rw [hf] at hn
      rw [hs _ _ _ hf]
      simp only [run] at hn
      simp only [runSteps]
      split
      · rename_i hb
        rw [hb] at hn
        exact congrArg (1 + ·) (steps_eq md (call_le hs md (by omega)) (ih (by omega)) (EnvLe.refl _)
          (fun _ _ => rfl) _ (ne_leave hn))
      · rfl

end Raki.Source
