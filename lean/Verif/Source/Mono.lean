import Verif.Source.Eval
/-!
# More functions and more depth

A run that is not stuck does not change when calls may nest deeper, or when the program has more functions.
-/

namespace Raki.Source

set_option linter.constructorNameAsVariable false

/-- `y` is what `x` is, unless `x` is stuck. -/
def Out.Le {α : Type} (x y : Out α) : Prop := x = .stuck ∨ x = y

namespace Out

theorem le_refl {α : Type} (x : Out α) : Le x x := .inr rfl
theorem stuck_le {α : Type} (x : Out α) : Le .stuck x := .inl rfl

theorem Le.eq {α : Type} {x y : Out α} (h : Le x y) (hx : x ≠ .stuck) : y = x := by
  rcases h with h | h
  · exact (hx h).elim
  · exact h.symm

theorem le_bind {α β : Type} {x y : Out α} {f g : α → Out β} (h : Le x y) (hf : ∀ a, Le (f a) (g a)) :
    Le (x >>= f) (y >>= g) := by
  rcases h with rfl | rfl
  · exact stuck_le _
  · cases x with
    | val a => exact hf a
    | ret v => exact le_refl _
    | panic => exact le_refl _
    | stuck => exact le_refl _

end Out

open Out

/-- The same variables, with outcomes that agree unless stuck. -/
inductive EnvLe : Env → Env → Prop
  | nil : EnvLe [] []
  | cons {x : Id} {a b : Out Val} {e f : Env} : Le a b → EnvLe e f → EnvLe ((x, a) :: e) ((x, b) :: f)

theorem EnvLe.refl : (e : Env) → EnvLe e e
  | [] => .nil
  | (_, a) :: e => .cons (le_refl a) (EnvLe.refl e)

theorem EnvLe.append (p : Env) {e f : Env} (h : EnvLe e f) : EnvLe (p ++ e) (p ++ f) := by
  induction p with
  | nil => exact h
  | cons q p ih => exact .cons (le_refl _) ih

theorem EnvLe.get {e f : Env} (h : EnvLe e f) (x : Id) : Le (Env.get e x) (Env.get f x) := by
  induction h with
  | nil => exact le_refl _
  | cons ha _ ih =>
    simp only [Env.get]
    split
    · exact ha
    · exact ih

theorem EnvLe.set {e f : Env} (h : EnvLe e f) (x : Id) (v : Val) : EnvLe (Env.set e x v) (Env.set f x v) := by
  induction h with
  | nil => exact .nil
  | cons ha he ih =>
    simp only [Env.set]
    split
    · exact .cons (le_refl _) he
    · exact .cons ha ih

theorem cond_le {α : Type} (v : Val) {a a' b b' : Out α} (ha : Le a a') (hb : Le b b') :
    Le (cond v a b) (cond v a' b') := by
  unfold cond
  split
  · exact ha
  · exact hb
  · exact le_refl _

theorem leave_le (t : Ty) {a b : Out Val} (h : Le a b) : Le (leave t a) (leave t b) := by
  rcases h with rfl | rfl
  · exact stuck_le _
  · exact le_refl _

theorem matchPat_le {α : Type} (p : Pat) (v : Val) {e e' : Env} (he : EnvLe e e') {k k' : Env → Out α}
    {a a' : Out α} (hk : ∀ e e', EnvLe e e' → Le (k e) (k' e')) (ha : Le a a') :
    Le (matchPat v e p k a) (matchPat v e' p k' a') := by
  induction p generalizing v a a' with
  | wild => exact hk _ _ he
  | var x => exact hk _ _ (.cons (le_refl _) he)
  | lit n =>
    simp only [matchPat]
    split
    · split
      · exact hk _ _ he
      · exact ha
    · exact le_refl _
  | range lo hi =>
    simp only [matchPat]
    split
    · split
      · exact hk _ _ he
      · exact ha
    · exact le_refl _
  | ctor ty c =>
    simp only [matchPat]
    split
    · split
      · split
        · exact hk _ _ he
        · exact ha
      · exact le_refl _
    · split
      · exact ha
      · exact le_refl _
    · exact le_refl _
  | ctor1 ty c p ih =>
    simp only [matchPat]
    split
    · split
      · split
        · exact ih _ ha
        · exact ha
      · exact le_refl _
    · split
      · exact ha
      · exact le_refl _
    · exact le_refl _
  | or p q ihp ihq => exact ihp v (ihq v ha)

/-- Calls that agree unless the first are stuck. -/
def CallLe (c c' : Id → Id → List Val → Out Val) : Prop := ∀ o f args, Le (c o f args) (c' o f args)

theorem showVal_le {c c' : Id → Id → List Val → Out Val} (hc : CallLe c c') (s : Spec) (v : Val) :
    Le (showVal c s v) (showVal c' s v) := by
  cases s <;> cases v <;> first
    | exact le_refl _
    | exact le_bind (hc _ _ _) (fun _ => le_refl _)

theorem forLoop_le {step step' : Env → Out Val} (hs : ∀ e e', EnvLe e e' → Le (step e) (step' e')) (idx elt x : Id)
    (vs : List Val) (n : Nat) {e e' : Env} (he : EnvLe e e') :
    (∃ f f', forLoop step idx elt x vs n e = .val f ∧ forLoop step' idx elt x vs n e' = .val f' ∧ EnvLe f f') ∨
    forLoop step idx elt x vs n e = .stuck ∨
    ((∀ f, forLoop step idx elt x vs n e ≠ .val f) ∧
      forLoop step idx elt x vs n e = forLoop step' idx elt x vs n e') := by
  induction vs generalizing n e e' with
  | nil => exact .inl ⟨e, e', rfl, rfl, he⟩
  | cons v vs ih =>
    simp only [forLoop]
    rcases he.get x with h | h
    · rw [h]; exact .inr (.inl rfl)
    rw [← h]
    cases ha : Env.get e x with
    | ret v => exact .inr (.inr ⟨nofun, rfl⟩)
    | panic => exact .inr (.inr ⟨nofun, rfl⟩)
    | stuck => exact .inr (.inl rfl)
    | val a =>
      have hs := hs _ _ (.cons (x := elt) (le_refl (.val v)) (.cons (x := idx) (le_refl (.val (.usize n))) he))
      rcases hs with h | h
      · right; left
        show (step _ >>= _) = _
        rw [h]; rfl
      · show _ ∨ _
        simp only [bind, Out.bind]
        rw [← h]
        cases step ((elt, .val v) :: (idx, .val (.usize n)) :: e) with
        | ret v => exact .inr (.inr ⟨nofun, rfl⟩)
        | panic => exact .inr (.inr ⟨nofun, rfl⟩)
        | stuck => exact .inr (.inl rfl)
        | val b =>
          cases a <;> cases b <;> first
            | exact .inr (.inl rfl)
            | exact ih _ (he.set _ _)

theorem local_le {c c' : Id → Id → List Val → Out Val} (hc : CallLe c c') (o x : Id) {g g' : List Val → Out Val}
    (hg : ∀ args, Le (g args) (g' args)) : CallLe (local_ c o x g) (local_ c' o x g') := by
  intro p f args
  simp only [local_]
  split
  · exact hg args
  · exact hc p f args

mutual

theorem eval_le (md : Build) {c c' : Id → Id → List Val → Out Val} (hc : CallLe c c') {e e' : Env} (he : EnvLe e e') :
    (x : Expr) → Le (eval md c e x) (eval md c' e' x)
  | .lit _ | .litT _ _ | .unit | .bool _ | .str _ | .variant _ _ | .unreachable => by
    simp only [eval]; exact le_refl _
  | .var x | .callClosure x => by simp only [eval]; exact he.get x
  | .variantOf _ _ a | .neg a | .cast a _ | .tryFrom _ a | .from_ _ a | .unwrap a | .into a | .question a | .ret a
  | .field a _ => by
    simp only [eval]; exact le_bind (eval_le md hc he a) fun _ => le_refl _
  | .call o f as => by
    simp only [eval]; exact le_bind (evalArgs_le md hc he as) fun vs => hc o f vs
  | .method a f as => by
    simp only [eval]
    refine le_bind (eval_le md hc he a) fun v => le_bind (evalArgs_le md hc he as) fun vs => ?_
    split
    · exact hc _ _ _
    · exact le_refl _
  | .bin _ a b | .pow a b => by
    simp only [eval]; exact le_bind (eval_le md hc he a) fun _ => le_bind (eval_le md hc he b) fun _ => le_refl _
  | .matches_ a p => by
    simp only [eval]
    exact le_bind (eval_le md hc he a) fun v => matchPat_le p v he (fun _ _ _ => le_refl _) (le_refl _)
  | .orElse a x b => by
    simp only [eval]
    refine le_bind (eval_le md hc he a) fun v => ?_
    split
    · exact le_refl _
    · exact leave_le _ (eval_le md hc (.cons (le_refl _) he) b)
    · exact le_refl _
  | .ite a b d => by
    simp only [eval]
    exact le_bind (eval_le md hc he a) fun v => cond_le v (eval_le md hc he b) (eval_le md hc he d)
  | .match_ a as => by
    simp only [eval]; exact le_bind (eval_le md hc he a) fun v => evalArms_le md hc he v as
  | .block ss => by simp only [eval]; exact evalStmts_le md hc he ss
  | .struct _ fs => by simp only [eval]; exact le_bind (evalFields_le md hc he fs) fun _ => le_refl _
  | .array es => by simp only [eval]; exact le_bind (evalArgs_le md hc he es) fun _ => le_refl _
  | .write ps => by simp only [eval]; exact le_bind (evalPieces_le md hc he ps) fun _ => le_refl _

theorem evalArgs_le (md : Build) {c c' : Id → Id → List Val → Out Val} (hc : CallLe c c') {e e' : Env}
    (he : EnvLe e e') : (x : Exprs) → Le (evalArgs md c e x) (evalArgs md c' e' x)
  | .nil => by simp only [evalArgs]; exact le_refl _
  | .cons a as => by
    simp only [evalArgs]
    exact le_bind (eval_le md hc he a) fun _ => le_bind (evalArgs_le md hc he as) fun _ => le_refl _

theorem evalArms_le (md : Build) {c c' : Id → Id → List Val → Out Val} (hc : CallLe c c') {e e' : Env}
    (he : EnvLe e e') (v : Val) : (x : Arms) → Le (evalArms md c e v x) (evalArms md c' e' v x)
  | .nil => by simp only [evalArms]; exact le_refl _
  | .cons p a as => by
    simp only [evalArms]
    exact matchPat_le p v he (fun _ _ h => eval_le md hc h a) (evalArms_le md hc he v as)

theorem evalFields_le (md : Build) {c c' : Id → Id → List Val → Out Val} (hc : CallLe c c') {e e' : Env}
    (he : EnvLe e e') : (x : Fields) → Le (evalFields md c e x) (evalFields md c' e' x)
  | .nil => by simp only [evalFields]; exact le_refl _
  | .cons _ a as => by
    simp only [evalFields]
    exact le_bind (eval_le md hc he a) fun _ => le_bind (evalFields_le md hc he as) fun _ => le_refl _

theorem evalPieces_le (md : Build) {c c' : Id → Id → List Val → Out Val} (hc : CallLe c c') {e e' : Env}
    (he : EnvLe e e') : (x : Pieces) → Le (evalPieces md c e x) (evalPieces md c' e' x)
  | .nil => by simp only [evalPieces]; exact le_refl _
  | .text _ ps => by
    simp only [evalPieces]; exact le_bind (evalPieces_le md hc he ps) fun _ => le_refl _
  | .arg s a ps => by
    simp only [evalPieces]
    exact le_bind (eval_le md hc he a) fun v => le_bind (showVal_le hc s v) fun _ =>
      le_bind (evalPieces_le md hc he ps) fun _ => le_refl _

theorem evalStmts_le (md : Build) {c c' : Id → Id → List Val → Out Val} (hc : CallLe c c') {e e' : Env}
    (he : EnvLe e e') : (x : Stmts) → Le (evalStmts md c e x) (evalStmts md c' e' x)
  | .done a => by simp only [evalStmts]; exact eval_le md hc he a
  | .let_ _ _ a ss => by
    simp only [evalStmts]
    exact le_bind (eval_le md hc he a) fun _ => evalStmts_le md hc (.cons (le_refl _) he) ss
  | .letClosure _ a ss => by
    simp only [evalStmts]; exact evalStmts_le md hc (.cons (eval_le md hc he a) he) ss
  | .letFn o x ps b ss => by
    simp only [evalStmts]
    refine evalStmts_le md (local_le hc o x fun args => ?_) he ss
    split
    · exact leave_le _ (eval_le md hc (he.append _) b)
    · exact le_refl _
  | .expr a ss => by
    simp only [evalStmts]; exact le_bind (eval_le md hc he a) fun _ => evalStmts_le md hc he ss
  | .assert a ss => by
    simp only [evalStmts]
    exact le_bind (eval_le md hc he a) fun v => cond_le v (evalStmts_le md hc he ss) (le_refl _)
  | .assertEq _ a b ss => by
    simp only [evalStmts]
    exact le_bind (eval_le md hc he a) fun v => le_bind (eval_le md hc he b) fun w =>
      cond_le _ (evalStmts_le md hc he ss) (le_refl _)
  | .forRevEnum idx elt a x b ss => by
    simp only [evalStmts]
    refine le_bind (eval_le md hc he a) fun v => ?_
    split
    · rename_i vs
      rcases forLoop_le (fun _ _ h => eval_le md hc h b) idx elt x vs.reverse 0 he with
        ⟨f, f', h1, h2, h⟩ | h | ⟨h, h'⟩
      · rw [h1, h2]; exact evalStmts_le md hc h ss
      · rw [h]; exact stuck_le _
      · rw [← h']
        generalize forLoop _ _ _ _ _ _ _ = o at h
        cases o with
        | val f => exact (h f rfl).elim
        | ret v => exact le_refl _
        | panic => exact le_refl _
        | stuck => exact le_refl _
    · exact le_refl _

end

/-- The functions of `fns` are among those of `gns`. -/
def Sub (fns gns : List Fn) : Prop := ∀ o f fn, find fns o f = some fn → find gns o f = some fn

theorem Sub.refl (fns : List Fn) : Sub fns fns := fun _ _ _ h => h

theorem find_name {fns : List Fn} {o f : Id} {fn : Fn} (h : find fns o f = some fn) :
    fn ∈ fns ∧ fn.owner = o ∧ fn.name = f := by
  induction fns with
  | nil => cases h
  | cons g fns ih =>
    simp only [find] at h
    split at h
    · rename_i hn
      cases h
      exact ⟨.head _, hn.1.symm, hn.2.symm⟩
    · exact ⟨.tail _ (ih h).1, (ih h).2⟩

theorem sub_of {fns gns : List Fn} (h : fns.map (fun fn => find gns fn.owner fn.name) = fns.map some) :
    Sub fns gns := by
  intro o f fn hf
  obtain ⟨hm, rfl, rfl⟩ := find_name hf
  obtain ⟨k, hk, rfl⟩ := List.getElem_of_mem hm
  have := congrArg (fun l => l[k]?) h
  simpa [List.getElem?_map, List.getElem?_eq_getElem hk] using this

/-- More functions and more depth change no run that is not stuck. -/
theorem call_le {fns gns : List Fn} (hs : Sub fns gns) (md : Build) {n m : Nat} (h : n ≤ m) :
    CallLe (call fns md n) (call gns md m) := by
  induction n generalizing m with
  | zero => intro o f args; exact stuck_le _
  | succ n ih =>
    obtain ⟨m, rfl⟩ : ∃ k, m = k + 1 := ⟨m - 1, by omega⟩
    intro o f args
    simp only [call]
    cases hf : find fns o f with
    | none => exact stuck_le _
    | some fn =>
      rw [hs _ _ _ hf]
      simp only [run]
      split
      · exact leave_le _ (eval_le md (ih (by omega)) (EnvLe.refl _) _)
      · exact le_refl _

theorem call_eq {fns gns : List Fn} (hs : Sub fns gns) (md : Build) {n m : Nat} (h : n ≤ m) {o f : Id}
    {args : List Val} (hn : call fns md n o f args ≠ .stuck) :
    call gns md m o f args = call fns md n o f args := (call_le hs md h o f args).eq hn

end Raki.Source
