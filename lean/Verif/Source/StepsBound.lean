import Verif.Source.Small
/-!
# The bound on the work holds

The steps that `Verif.Source.Steps` counts are no more than it computes from the text.
-/

namespace Raki.Source

set_option linter.constructorNameAsVariable false

theorem after_le {len : Nat} {α : Type} {p : α → Prop} {x : Out α} (hx : OutP len p x) {f : α → Nat} {n : Nat}
    (hf : ∀ a, p a → f a ≤ n) : after x f ≤ n := by
  cases x with
  | val a => exact hf a hx
  | ret v => exact Nat.zero_le _
  | panic => exact Nat.zero_le _
  | stuck => exact Nat.zero_le _

/-- Calls with small arguments take no more than the costs say. -/
def CostLe (len : Nat) (cost : Id → Id → List Val → Nat) (c : Costs) : Prop :=
  ∀ o f, c.fn o f ≤ c.method f ∧ ∀ args, (∀ v ∈ args, Small len v) → cost o f args ≤ c.fn o f

/-- The closures of `cl` take no more than those of `b`. -/
def ClLe (cl b : List (Id × Nat)) : Prop := ∀ x, closureSteps cl x ≤ closureSteps b x

theorem ClLe.cons {cl b : List (Id × Nat)} (h : ClLe cl b) (x : Id) {m n : Nat} (hm : m ≤ n) :
    ClLe ((x, m) :: cl) ((x, n) :: b) := by
  intro y
  simp only [closureSteps]
  split
  · exact hm
  · exact h y

theorem ClLe.zero {cl b : List (Id × Nat)} (h : ClLe cl b) (x : Id) : ClLe ((x, 0) :: cl) b := by
  intro y
  simp only [closureSteps]
  split
  · exact Nat.zero_le _
  · exact h y

theorem ClLe.plain {cl b : List (Id × Nat)} (h : ClLe cl b) : (xs : List Id) → ClLe (plain xs ++ cl) b
  | [] => h
  | x :: xs => (ClLe.plain h xs).zero x

theorem pick_le {len : Nat} (p : Pat) {v : Val} (hv : Small len v) {env : Env} (he : EnvSmall len env)
    {k : Env → Nat} {fail m n : Nat} (hk : ∀ e, EnvSmall len e → k e ≤ m) (hf : fail ≤ n) :
    pick v env p k fail ≤ max m n :=
  after_le (matchPat_small (q := fun a => a ≤ max m n) p hv he
    (fun e h => Nat.le_trans (hk e h) (Nat.le_max_left _ _)) (Nat.le_trans hf (Nat.le_max_right _ _))) fun _ h => h

theorem showSteps_le {len : Nat} {cost : Id → Id → List Val → Nat} {c : Costs} (hk : CostLe len cost c) (s : Spec)
    {v : Val} (hv : Small len v) :
    showSteps cost s v ≤ (match s with | .display => 1 + c.method .fmt | _ => 1) := by
  have key : ∀ ty, cost ty .fmt [v] ≤ c.method .fmt := fun ty =>
    Nat.le_trans ((hk ty .fmt).2 [v] (by simpa using hv)) (hk ty .fmt).1
  cases s <;> cases v <;> simp only [showSteps] <;> first
    | exact Nat.le_refl _
    | exact Nat.add_le_add_left (key _) 1
    | omega

theorem loopSteps_le {len : Nat} {step : Env → Out Val} {cost : Env → Nat} {n : Nat}
    (hs : ∀ e, EnvSmall len e → OutP len (Small len) (step e)) (hk : ∀ e, EnvSmall len e → cost e ≤ n) (idx elt x : Id)
    {vs : List Val} (hv : ∀ v ∈ vs, Small len v) (i : Nat) {env : Env} (he : EnvSmall len env) :
    loopSteps step cost idx elt x vs i env ≤ vs.length * (1 + n) := by
  induction vs generalizing i env with
  | nil => exact Nat.zero_le _
  | cons v vs ih =>
    have he' : EnvSmall len ((elt, .val v) :: (idx, .val (.usize i)) :: env) :=
      (he.cons (o := .val _) (Small.usize i)).cons (o := .val v) (hv v List.mem_cons_self)
    simp only [loopSteps, List.length_cons, Nat.add_mul, Nat.one_mul]
    refine Nat.le_trans (Nat.add_le_add_left (after_le (n := n + vs.length * (1 + n)) (he.get x) fun a _ =>
      Nat.add_le_add (hk _ he') (after_le (hs _ he') fun b _ => ?_)) 1) (by omega)
    split
    · exact ih (fun w hw => hv w (List.mem_cons_of_mem _ hw)) _ (he.set x (.u32 _))
    · exact Nat.zero_le _

theorem localSteps_le {len : Nat} {cost : Id → Id → List Val → Nat} {c : Costs} (hk : CostLe len cost c) (o x : Id)
    {g : List Val → Nat} {n : Nat} (hg : ∀ args, (∀ v ∈ args, Small len v) → g args ≤ n) :
    CostLe len (localSteps cost o x g) (c.add o x n) := by
  intro p f
  obtain ⟨h1, h2⟩ := hk p f
  constructor
  · simp only [Costs.add]
    split
    · rename_i h; rw [if_pos h.2]; exact Nat.le_max_right _ _
    · split
      · exact Nat.le_trans h1 (Nat.le_max_left _ _)
      · exact h1
  · intro args ha
    simp only [localSteps, Costs.add]
    split
    · exact hg args ha
    · exact h2 args ha

section

variable {len : Nat} (md : Build)

mutual

theorem steps_le {call : Id → Id → List Val → Out Val} {cost : Id → Id → List Val → Nat} (hc : CallSmall len call)
    {c : Costs} (hk : CostLe len cost c) {env : Env} (he : EnvSmall len env) {cl b : List (Id × Nat)}
    (hl : ClLe cl b) : (x : Expr) → fits len x = true → steps md call cost env cl x ≤ bound len c b x
  | .lit _, _ | .litT _ _, _ | .unit, _ | .bool _, _ | .str _, _ | .var _, _ | .variant _ _, _ | .unreachable, _ => by
    simp only [steps, bound]; exact Nat.le_refl _
  | .callClosure x, _ => by simp only [steps, bound]; exact Nat.add_le_add_left (hl x) 1
  | .variantOf _ _ a, h | .neg a, h | .cast a _, h | .tryFrom _ a, h | .from_ _ a, h | .unwrap a, h | .into a, h
  | .question a, h | .ret a, h | .field a _, h => by
    simp only [fits] at h; simp only [steps, bound]
    exact Nat.add_le_add_left (steps_le hc hk he hl a h) 1
  | .call o f as, h => by
    simp only [fits] at h; simp only [steps, bound]
    exact Nat.add_le_add (Nat.add_le_add_left (stepsArgs_le hc hk he hl as h) 1)
      (after_le (evalArgs_small md hc he as h) fun vs hv => (hk o f).2 vs hv.2)
  | .method a f as, h => by
    simp only [fits, Bool.and_eq_true] at h; simp only [steps, bound]
    refine Nat.add_le_add (Nat.add_le_add_left (steps_le hc hk he hl a h.1) 1)
      (after_le (eval_small md hc he a h.1) fun v hv => Nat.add_le_add (stepsArgs_le hc hk he hl as h.2)
        (after_le (evalArgs_small md hc he as h.2) fun vs hs => ?_))
    split
    · exact Nat.le_trans ((hk _ f).2 _ (List.forall_mem_cons.2 ⟨hv, hs.2⟩)) (hk _ f).1
    · exact Nat.zero_le _
  | .bin _ a d, h | .pow a d, h => by
    simp only [fits, Bool.and_eq_true] at h; simp only [steps, bound]
    exact Nat.add_le_add (Nat.add_le_add_left (steps_le hc hk he hl a h.1) 1)
      (after_le (eval_small md hc he a h.1) fun _ _ => steps_le hc hk he hl d h.2)
  | .matches_ a p, h => by
    simp only [fits] at h; simp only [steps, bound]
    exact Nat.add_le_add_right (Nat.add_le_add_left (steps_le hc hk he hl a h) 1) _
  | .orElse a x d, h => by
    simp only [fits, Bool.and_eq_true] at h; simp only [steps, bound]
    refine Nat.add_le_add (Nat.add_le_add_left (steps_le hc hk he hl a h.1) 1)
      (after_le (eval_small md hc he a h.1) fun v hv => ?_)
    split
    · cases hv with | variantOf _ _ hv => exact steps_le hc hk (he.cons (o := .val _) hv) (hl.zero x) d h.2
    · exact Nat.zero_le _
  | .ite a d e, h => by
    simp only [fits, Bool.and_eq_true] at h; simp only [steps, bound]
    refine Nat.add_le_add (Nat.add_le_add_left (steps_le hc hk he hl a h.1) 1)
      (after_le (eval_small md hc he a h.1) fun v _ => ?_)
    split
    · exact Nat.le_trans (steps_le hc hk he hl d h.2.1) (Nat.le_max_left _ _)
    · exact Nat.le_trans (steps_le hc hk he hl e h.2.2) (Nat.le_max_right _ _)
    · exact Nat.zero_le _
  | .match_ a as, h => by
    simp only [fits, Bool.and_eq_true] at h; simp only [steps, bound]
    exact Nat.add_le_add (Nat.add_le_add_left (steps_le hc hk he hl a h.1) 1)
      (after_le (eval_small md hc he a h.1) fun v hv => stepsArms_le hc hk he hl hv as h.2)
  | .block ss, h => by
    simp only [fits] at h; simp only [steps, bound]
    exact Nat.add_le_add_left (stepsStmts_le hc hk he hl ss h) 1
  | .struct _ fs, h => by
    simp only [fits] at h; simp only [steps, bound]
    exact Nat.add_le_add_left (stepsFields_le hc hk he hl fs h) 1
  | .array es, h => by
    simp only [fits, Bool.and_eq_true] at h; simp only [steps, bound]
    exact Nat.add_le_add_left (stepsArgs_le hc hk he hl es h.2) 1
  | .write ps, h => by
    simp only [fits] at h; simp only [steps, bound]
    exact Nat.add_le_add_left (stepsPieces_le hc hk he hl ps h) 1

theorem stepsArgs_le {call : Id → Id → List Val → Out Val} {cost : Id → Id → List Val → Nat}
    (hc : CallSmall len call) {c : Costs} (hk : CostLe len cost c) {env : Env} (he : EnvSmall len env)
    {cl b : List (Id × Nat)} (hl : ClLe cl b) : (x : Exprs) → fitsArgs len x = true →
    stepsArgs md call cost env cl x ≤ boundArgs len c b x
  | .nil, _ => by simp only [stepsArgs, boundArgs]; exact Nat.le_refl _
  | .cons a as, h => by
    simp only [fitsArgs, Bool.and_eq_true] at h; simp only [stepsArgs, boundArgs]
    exact Nat.add_le_add (steps_le hc hk he hl a h.1)
      (after_le (eval_small md hc he a h.1) fun _ _ => stepsArgs_le hc hk he hl as h.2)

theorem stepsArms_le {call : Id → Id → List Val → Out Val} {cost : Id → Id → List Val → Nat}
    (hc : CallSmall len call) {c : Costs} (hk : CostLe len cost c) {env : Env} (he : EnvSmall len env)
    {cl b : List (Id × Nat)} (hl : ClLe cl b) {v : Val} (hv : Small len v) : (x : Arms) → fitsArms len x = true →
    stepsArms md call cost env cl v x ≤ boundArms len c b x
  | .nil, _ => by simp only [stepsArms, boundArms]; exact Nat.le_refl _
  | .cons p a as, h => by
    simp only [fitsArms, Bool.and_eq_true] at h; simp only [stepsArms, boundArms]
    exact Nat.add_le_add_left (pick_le p hv he (fun _ h' => steps_le hc hk h' (hl.plain _) a h.1)
      (stepsArms_le hc hk he hl hv as h.2)) _

theorem stepsFields_le {call : Id → Id → List Val → Out Val} {cost : Id → Id → List Val → Nat}
    (hc : CallSmall len call) {c : Costs} (hk : CostLe len cost c) {env : Env} (he : EnvSmall len env)
    {cl b : List (Id × Nat)} (hl : ClLe cl b) : (x : Fields) → fitsFields len x = true →
    stepsFields md call cost env cl x ≤ boundFields len c b x
  | .nil, _ => by simp only [stepsFields, boundFields]; exact Nat.le_refl _
  | .cons _ a as, h => by
    simp only [fitsFields, Bool.and_eq_true] at h; simp only [stepsFields, boundFields]
    exact Nat.add_le_add (steps_le hc hk he hl a h.1)
      (after_le (eval_small md hc he a h.1) fun _ _ => stepsFields_le hc hk he hl as h.2)

theorem stepsPieces_le {call : Id → Id → List Val → Out Val} {cost : Id → Id → List Val → Nat}
    (hc : CallSmall len call) {c : Costs} (hk : CostLe len cost c) {env : Env} (he : EnvSmall len env)
    {cl b : List (Id × Nat)} (hl : ClLe cl b) : (x : Pieces) → fitsPieces len x = true →
    stepsPieces md call cost env cl x ≤ boundPieces len c b x
  | .nil, _ => by simp only [stepsPieces, boundPieces]; exact Nat.le_refl _
  | .text _ ps, h => by
    simp only [fitsPieces] at h; simp only [stepsPieces, boundPieces]
    exact Nat.add_le_add_left (stepsPieces_le hc hk he hl ps h) 1
  | .arg s a ps, h => by
    simp only [fitsPieces, Bool.and_eq_true] at h; simp only [stepsPieces, boundPieces]
    exact Nat.add_le_add (steps_le hc hk he hl a h.1) (after_le (eval_small md hc he a h.1) fun v hv =>
      Nat.add_le_add (showSteps_le hk s hv) (after_le (showVal_small hc s hv) fun _ _ =>
        stepsPieces_le hc hk he hl ps h.2))

theorem stepsStmts_le {call : Id → Id → List Val → Out Val} {cost : Id → Id → List Val → Nat}
    (hc : CallSmall len call) {c : Costs} (hk : CostLe len cost c) {env : Env} (he : EnvSmall len env)
    {cl b : List (Id × Nat)} (hl : ClLe cl b) : (x : Stmts) → fitsStmts len x = true →
    stepsStmts md call cost env cl x ≤ boundStmts len c b x
  | .done a, h => by simp only [fitsStmts] at h; simp only [stepsStmts, boundStmts]; exact steps_le hc hk he hl a h
  | .let_ _ _ a ss, h => by
    simp only [fitsStmts, Bool.and_eq_true] at h; simp only [stepsStmts, boundStmts]
    exact Nat.add_le_add (Nat.add_le_add_left (steps_le hc hk he hl a h.1) 1)
      (after_le (eval_small md hc he a h.1) fun v hv =>
        stepsStmts_le hc hk (he.cons (o := .val _) (coerce_small _ _ hv)) (hl.zero _) ss h.2)
  | .letClosure x a ss, h => by
    simp only [fitsStmts, Bool.and_eq_true] at h; simp only [stepsStmts, boundStmts]
    exact Nat.add_le_add_left (stepsStmts_le hc hk (he.cons (eval_small md hc he a h.1))
      (hl.cons x (steps_le hc hk he hl a h.1)) ss h.2) 1
  | .letFn o x ps a ss, h => by
    simp only [fitsStmts, Bool.and_eq_true] at h; simp only [stepsStmts, boundStmts]
    refine Nat.add_le_add_left (stepsStmts_le (local_small hc o x fun args ha => ?_)
      (localSteps_le hk o x fun args ha => ?_) he hl ss h.2) 1
    · split
      · rename_i hb
        exact leave_small _ (eval_small md hc ((bindParams_small ha hb).append he) a h.1)
      · trivial
    · split
      · rename_i hb
        exact Nat.add_le_add_left (steps_le hc hk ((bindParams_small ha hb).append he) (hl.plain _) a h.1) 1
      · exact Nat.zero_le _
  | .expr a ss, h => by
    simp only [fitsStmts, Bool.and_eq_true] at h; simp only [stepsStmts, boundStmts]
    exact Nat.add_le_add (Nat.add_le_add_left (steps_le hc hk he hl a h.1) 1)
      (after_le (eval_small md hc he a h.1) fun _ _ => stepsStmts_le hc hk he hl ss h.2)
  | .assert a ss, h => by
    simp only [fitsStmts, Bool.and_eq_true] at h; simp only [stepsStmts, boundStmts]
    refine Nat.add_le_add (Nat.add_le_add_left (steps_le hc hk he hl a h.1) 1)
      (after_le (eval_small md hc he a h.1) fun v _ => ?_)
    split
    · exact stepsStmts_le hc hk he hl ss h.2
    · exact Nat.zero_le _
  | .assertEq _ a d ss, h => by
    simp only [fitsStmts, Bool.and_eq_true] at h; simp only [stepsStmts, boundStmts]
    refine Nat.add_le_add (Nat.add_le_add_left (steps_le hc hk he hl a h.1) 1)
      (after_le (eval_small md hc he a h.1) fun v _ => Nat.add_le_add (steps_le hc hk he hl d h.2.1)
        (after_le (eval_small md hc he d h.2.1) fun w _ => ?_))
    split
    · exact stepsStmts_le hc hk he hl ss h.2.2
    · exact Nat.zero_le _
  | .forRevEnum idx elt a x d ss, h => by
    simp only [fitsStmts, Bool.and_eq_true] at h; simp only [stepsStmts, boundStmts]
    refine Nat.add_le_add (Nat.add_le_add_left (steps_le hc hk he hl a h.1) 1)
      (after_le (eval_small md hc he a h.1) fun v hv => ?_)
    split
    · cases hv with
      | array hn hv =>
        rename_i vs
        have hr : ∀ w ∈ vs.reverse, Small len w := fun w hw => hv w (List.mem_reverse.1 hw)
        refine Nat.add_le_add (Nat.le_trans (loopSteps_le (fun _ h' => eval_small md hc h' d h.2.1)
          (fun _ h' => steps_le hc hk h' ((hl.zero _).zero _) d h.2.1) idx elt x hr 0 he) ?_)
          (after_le (forLoop_small (fun _ h' => eval_small md hc h' d h.2.1) idx elt x hr 0 he) fun _ h' =>
            stepsStmts_le hc hk h' hl ss h.2.2)
        exact Nat.mul_le_mul_right _ (by simpa using hn)
    · exact Nat.zero_le _

end

end

theorem costs_method (t : List (Id × Id × Nat)) (o f : Id) : (costs t).fn o f ≤ (costs t).method f := by
  induction t with
  | nil => exact Nat.le_refl _
  | cons a t ih =>
    simp only [costs, List.foldr_cons] at ih ⊢
    split
    · rename_i h; rw [if_pos h.2]; exact Nat.le_max_left _ _
    · split
      · exact Nat.le_trans ih (Nat.le_max_right _ _)
      · exact ih

/-- If each table holds for calls nested one deeper than the last, then calls nested `d` deep take no more than the
`d`-th table says. -/
theorem callSteps_le {len : Nat} {fns : List Fn} (md : Build) (t : Nat → List (Id × Id × Nat)) (n : Nat)
    (ht : ∀ d, d < n → covers len fns (t d) (t (d + 1)) = true) (hf : ∀ fn ∈ fns, fits len fn.body = true) (d : Nat)
    (hd : d ≤ n) : CostLe len (callSteps fns md d) (costs (t d)) := by
  induction d with
  | zero => exact fun o f => ⟨costs_method _ o f, fun _ _ => Nat.zero_le _⟩
  | succ d ih =>
    refine fun o f => ⟨costs_method _ o f, fun args ha => ?_⟩
    simp only [callSteps]
    split
    · rename_i fn hn
      have hm : fn ∈ fns ∧ fn.owner = o ∧ fn.name = f := by
        clear ih ha ht hf
        induction fns with
        | nil => cases hn
        | cons g fns ihf =>
          simp only [find] at hn
          split at hn
          · rename_i h
            cases hn
            exact ⟨List.mem_cons_self, h.1.symm, h.2.symm⟩
          · exact ⟨List.mem_cons_of_mem _ (ihf hn).1, (ihf hn).2⟩
      obtain ⟨hm, rfl, rfl⟩ := hm
      have hcov := List.all_eq_true.1 (ht d hd) fn hm
      simp only [Bool.and_eq_true] at hcov
      simp only [runSteps]
      split
      · rename_i hb
        exact Nat.le_trans (Nat.add_le_add_left (steps_le md (call_small hf md d) (ih (by omega))
          (bindParams_small ha hb) (fun _ => Nat.le_refl _) fn.body (hf fn hm)) 1) (Nat.le_of_ble_eq_true hcov.2)
      · exact Nat.zero_le _
    · exact Nat.zero_le _

end Raki.Source
