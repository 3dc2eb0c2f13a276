import Verif.Source.Steps
/-!
# No long arrays

If no array expression of a program has more than `len` elements, and the arguments hold none, then no array with
more than `len` elements ever arises.
-/

namespace Raki.Source

set_option linter.constructorNameAsVariable false

/-- No array in the value has more than `len` elements. -/
inductive Small (len : Nat) : Val → Prop
  | u8 (n : Nat) : Small len (.u8 n)
  | u16 (x : BitVec 16) : Small len (.u16 x)
  | u32 (x : BitVec 32) : Small len (.u32 x)
  | usize (n : Nat) : Small len (.usize n)
  | i32 (z : Int) : Small len (.i32 z)
  | lit (n : Nat) : Small len (.lit n)
  | bool (b : Bool) : Small len (.bool b)
  | str (s : String) : Small len (.str s)
  | unit : Small len .unit
  | variant (ty c : Id) : Small len (.variant ty c)
  | variantOf (ty c : Id) {v : Val} : Small len v → Small len (.variantOf ty c v)
  | struct (ty : Id) {fs : List (Id × Val)} : (∀ x v, (x, v) ∈ fs → Small len v) → Small len (.struct ty fs)
  | array {vs : List Val} : vs.length ≤ len → (∀ v ∈ vs, Small len v) → Small len (.array vs)
  | wrote (cs : List String) : Small len (.wrote cs)

/-- A value that comes out satisfies `p`, a value returned is small. -/
def OutP (len : Nat) {α : Type} (p : α → Prop) : Out α → Prop
  | .val a => p a
  | .ret v => Small len v
  | .panic => True
  | .stuck => True

theorem OutP.bind {len : Nat} {α β : Type} {p : α → Prop} {q : β → Prop} {x : Out α} {f : α → Out β}
    (hx : OutP len p x) (hf : ∀ a, p a → OutP len q (f a)) : OutP len q (x >>= f) := by
  cases x with
  | val a => exact hf a hx
  | ret v => exact hx
  | panic => trivial
  | stuck => trivial

/-- The variables hold small values. -/
def EnvSmall (len : Nat) (env : Env) : Prop := ∀ x o, (x, o) ∈ env → OutP len (Small len) o

theorem EnvSmall.cons {len : Nat} {env : Env} {x : Id} {o : Out Val} (ho : OutP len (Small len) o)
    (h : EnvSmall len env) : EnvSmall len ((x, o) :: env) := by
  intro y p hp
  rcases List.mem_cons.1 hp with e | hp
  · cases e; exact ho
  · exact h y p hp

theorem EnvSmall.append {len : Nat} {e f : Env} (he : EnvSmall len e) (hf : EnvSmall len f) :
    EnvSmall len (e ++ f) := by
  intro y p hp
  rcases List.mem_append.1 hp with hp | hp
  · exact he y p hp
  · exact hf y p hp

theorem EnvSmall.get {len : Nat} {env : Env} (h : EnvSmall len env) (x : Id) :
    OutP len (Small len) (Env.get env x) := by
  induction env with
  | nil => trivial
  | cons a env ih =>
    obtain ⟨y, o⟩ := a
    simp only [Env.get]
    split
    · exact h y o List.mem_cons_self
    · exact ih fun z p hp => h z p (List.mem_cons_of_mem _ hp)

theorem EnvSmall.set {len : Nat} {env : Env} (h : EnvSmall len env) (x : Id) {v : Val} (hv : Small len v) :
    EnvSmall len (Env.set env x v) := by
  induction env with
  | nil => exact h
  | cons a env ih =>
    obtain ⟨y, o⟩ := a
    have ht : EnvSmall len env := fun z p hp => h z p (List.mem_cons_of_mem _ hp)
    simp only [Env.set]
    split
    · exact ht.cons hv
    · exact (ih ht).cons (h y o List.mem_cons_self)

theorem coerce_small {len : Nat} (t : Ty) (v : Val) (h : Small len v) : Small len (coerce t v) := by
  induction t generalizing v with
  | option t ih =>
    generalize ht : Ty.option t = t'
    fun_cases coerce t' v <;> cases ht
    · cases h with | variantOf _ _ h => exact .variantOf _ _ (ih _ h)
    · exact h
  | result t ih =>
    generalize ht : Ty.result t = t'
    fun_cases coerce t' v <;> cases ht
    · cases h with | variantOf _ _ h => exact .variantOf _ _ (ih _ h)
    · exact h
  | array t ih =>
    generalize ht : Ty.array t = t'
    fun_cases coerce t' v <;> cases ht
    · cases h with
      | array hl hv =>
        refine .array (by simpa using hl) fun w hw => ?_
        obtain ⟨u, hu, rfl⟩ := List.mem_map.1 hw
        exact ih u (hv u hu)
    · exact h
  | _ => cases v <;> simp only [coerce] <;> first | exact h | constructor

theorem leave_small {len : Nat} (t : Ty) {x : Out Val} (h : OutP len (Small len) x) :
    OutP len (Small len) (leave t x) := by
  cases x with
  | val v => exact coerce_small t v h
  | ret v => exact coerce_small t v h
  | panic => trivial
  | stuck => trivial

theorem ofRust_small {len : Nat} {α : Type} {k : α → Val} (hk : ∀ a, Small len (k a)) (r : RustM α) :
    OutP len (Small len) (Out.ofRust k r) := by
  cases r with
  | ok a => exact hk a
  | err e => trivial
  | panic => trivial

theorem arith_small {len : Nat} (m : Mode) (op : BinOp) (a b : Val) : OutP len (Small len) (arith m op a b) := by
  unfold arith
  split
  all_goals first
    | trivial
    | exact ofRust_small (fun _ => by constructor) _
    | (constructor; done)

theorem shift_small {len : Nat} (m : Mode) (op : BinOp) (a : Val) (k : Nat) :
    OutP len (Small len) (shift m op a k) := by
  unfold shift
  split
  all_goals first
    | trivial
    | exact ofRust_small (fun _ => by constructor) _

theorem binOp_small {len : Nat} (m : Mode) (op : BinOp) (a b : Val) : OutP len (Small len) (binOp m op a b) := by
  unfold binOp
  split
  · split
    · exact shift_small _ _ _ _
    · trivial
  · split
    · exact shift_small _ _ _ _
    · trivial
  · exact arith_small _ _ _ _

theorem power_small {len : Nat} (m : Mode) (a b : Val) : OutP len (Small len) (power m a b) := by
  unfold power
  split
  all_goals first
    | trivial
    | exact ofRust_small (fun _ => by constructor) _

theorem castTo_small {len : Nat} (p : PtrWidth) (v : Val) (t : Ty) : OutP len (Small len) (castTo p v t) := by
  unfold castTo
  split
  all_goals first
    | trivial
    | (constructor; done)

theorem tryFromTo_small {len : Nat} (t : Ty) (v : Val) : OutP len (Small len) (tryFromTo t v) := by
  unfold tryFromTo
  split
  all_goals first
    | trivial
    | (simp only [inRange]; split <;> exact .variantOf _ _ (by constructor))

theorem fromTo_small {len : Nat} (t : Ty) (v : Val) : OutP len (Small len) (fromTo t v) := by
  unfold fromTo
  split
  · constructor
  · trivial

theorem intoTo_small {len : Nat} (v : Val) : OutP len (Small len) (intoTo v) := by
  unfold intoTo
  split
  · constructor
  · trivial

theorem negVal_small {len : Nat} (m : Mode) (v : Val) : OutP len (Small len) (negVal m v) := by
  unfold negVal
  split
  · constructor
  · exact ofRust_small (fun _ => by constructor) _
  · trivial

theorem unwrapVal_small {len : Nat} {v : Val} (h : Small len v) : OutP len (Small len) (unwrapVal v) := by
  unfold unwrapVal
  split
  · cases h with | variantOf _ _ h => exact h
  · trivial
  · cases h with | variantOf _ _ h => exact h
  · trivial
  · trivial

theorem questionVal_small {len : Nat} {v : Val} (h : Small len v) : OutP len (Small len) (questionVal v) := by
  unfold questionVal
  split
  · cases h with | variantOf _ _ h => exact h
  · cases h with | variantOf _ _ h => exact .variantOf _ _ h
  · trivial

theorem getField_small {len : Nat} {fs : List (Id × Val)} (h : ∀ x v, (x, v) ∈ fs → Small len v) (x : Id) :
    OutP len (Small len) (getField fs x) := by
  induction fs with
  | nil => trivial
  | cons a fs ih =>
    obtain ⟨y, v⟩ := a
    simp only [getField]
    split
    · exact h y v List.mem_cons_self
    · exact ih fun z w hw => h z w (List.mem_cons_of_mem _ hw)

theorem bindParams_small {len : Nat} {ps : List (Id × Ty)} {vs : List Val} (h : ∀ v ∈ vs, Small len v) {env : Env}
    (he : bindParams ps vs = some env) : EnvSmall len env := by
  induction ps generalizing vs env with
  | nil =>
    cases vs with
    | nil => cases he; intro x o ho; cases ho
    | cons v vs => cases he
  | cons p ps ih =>
    cases vs with
    | nil => cases he
    | cons v vs =>
      simp only [bindParams, Option.map_eq_some_iff] at he
      obtain ⟨e, he, rfl⟩ := he
      exact (ih (fun w hw => h w (List.mem_cons_of_mem _ hw)) he).cons (coerce_small _ _ (h v List.mem_cons_self))

theorem cond_small {len : Nat} {α : Type} {p : α → Prop} (v : Val) {a b : Out α} (ha : OutP len p a)
    (hb : OutP len p b) : OutP len p (cond v a b) := by
  unfold cond
  split
  · exact ha
  · exact hb
  · trivial

theorem matchPat_small {len : Nat} {α : Type} {q : α → Prop} (p : Pat) {v : Val} (hv : Small len v) {env : Env}
    (he : EnvSmall len env) {k : Env → Out α} {fail : Out α} (hk : ∀ e, EnvSmall len e → OutP len q (k e))
    (hf : OutP len q fail) : OutP len q (matchPat v env p k fail) := by
  induction p generalizing v fail with
  | wild => exact hk _ he
  | var x => exact hk _ (he.cons hv)
  | lit n =>
    simp only [matchPat]
    split
    · split
      · exact hk _ he
      · exact hf
    · trivial
  | range lo hi =>
    simp only [matchPat]
    split
    · split
      · exact hk _ he
      · exact hf
    · trivial
  | ctor ty c =>
    simp only [matchPat]
    split
    · split
      · split
        · exact hk _ he
        · exact hf
      · trivial
    · split
      · exact hf
      · trivial
    · trivial
  | ctor1 ty c p ih =>
    simp only [matchPat]
    split
    · split
      · split
        · cases hv with | variantOf _ _ hv => exact ih hv hf
        · exact hf
      · trivial
    · split
      · exact hf
      · trivial
    · trivial
  | or p q ihp ihq => exact ihp hv (ihq hv hf)

/-- Calls with small arguments have small results. -/
def CallSmall (len : Nat) (c : Id → Id → List Val → Out Val) : Prop :=
  ∀ o f args, (∀ v ∈ args, Small len v) → OutP len (Small len) (c o f args)

theorem showVal_small {len : Nat} {c : Id → Id → List Val → Out Val} (hc : CallSmall len c) (s : Spec) {v : Val}
    (hv : Small len v) : OutP len (fun _ => True) (showVal c s v) := by
  unfold showVal
  split
  all_goals first
    | trivial
    | (refine OutP.bind (hc _ _ _ (by simpa using hv)) fun a _ => ?_
       split <;> trivial)

theorem forLoop_small {len : Nat} {step : Env → Out Val} (hs : ∀ e, EnvSmall len e → OutP len (Small len) (step e))
    (idx elt x : Id) {vs : List Val} (hv : ∀ v ∈ vs, Small len v) (n : Nat) {env : Env} (he : EnvSmall len env) :
    OutP len (EnvSmall len) (forLoop step idx elt x vs n env) := by
  induction vs generalizing n env with
  | nil => exact he
  | cons v vs ih =>
    simp only [forLoop]
    refine OutP.bind (he.get x) fun a _ => OutP.bind (hs _ ((he.cons (by constructor)).cons (hv v List.mem_cons_self)))
      fun b _ => ?_
    split
    · exact ih (fun w hw => hv w (List.mem_cons_of_mem _ hw)) _ (he.set x (by constructor))
    · trivial

theorem local_small {len : Nat} {c : Id → Id → List Val → Out Val} (hc : CallSmall len c) (o x : Id)
    {g : List Val → Out Val} (hg : ∀ args, (∀ v ∈ args, Small len v) → OutP len (Small len) (g args)) :
    CallSmall len (local_ c o x g) := by
  intro p f args ha
  simp only [local_]
  split
  · exact hg args ha
  · exact hc p f args ha

mutual

theorem eval_small {len : Nat} (md : Build) {c : Id → Id → List Val → Out Val} (hc : CallSmall len c) {env : Env}
    (he : EnvSmall len env) : (x : Expr) → fits len x = true → OutP len (Small len) (eval md c env x)
  | .lit _, _ | .unit, _ | .bool _, _ | .str _, _ | .variant _ _, _ => by
    simp only [eval]; constructor
  | .litT n t, _ => by simp only [eval]; exact coerce_small t _ (.lit n)
  | .unreachable, _ => by simp only [eval]; trivial
  | .var x, _ | .callClosure x, _ => by simp only [eval]; exact he.get x
  | .variantOf _ _ a, h => by
    simp only [fits] at h; simp only [eval]
    exact OutP.bind (eval_small md hc he a h) fun _ hv => .variantOf _ _ hv
  | .neg a, h => by
    simp only [fits] at h; simp only [eval]
    exact OutP.bind (eval_small md hc he a h) fun _ _ => negVal_small _ _
  | .cast a _, h => by
    simp only [fits] at h; simp only [eval]
    exact OutP.bind (eval_small md hc he a h) fun _ _ => castTo_small _ _ _
  | .tryFrom _ a, h => by
    simp only [fits] at h; simp only [eval]
    exact OutP.bind (eval_small md hc he a h) fun _ _ => tryFromTo_small _ _
  | .from_ _ a, h => by
    simp only [fits] at h; simp only [eval]
    exact OutP.bind (eval_small md hc he a h) fun _ _ => fromTo_small _ _
  | .unwrap a, h => by
    simp only [fits] at h; simp only [eval]
    exact OutP.bind (eval_small md hc he a h) fun _ hv => unwrapVal_small hv
  | .into a, h => by
    simp only [fits] at h; simp only [eval]
    exact OutP.bind (eval_small md hc he a h) fun _ _ => intoTo_small _
  | .question a, h => by
    simp only [fits] at h; simp only [eval]
    exact OutP.bind (eval_small md hc he a h) fun _ hv => questionVal_small hv
  | .ret a, h => by
    simp only [fits] at h; simp only [eval]
    exact OutP.bind (eval_small md hc he a h) fun _ hv => hv
  | .field a x, h => by
    simp only [fits] at h; simp only [eval]
    refine OutP.bind (eval_small md hc he a h) fun v hv => ?_
    split
    · cases hv with | struct _ hv => exact getField_small hv x
    · trivial
  | .call o f as, h => by
    simp only [fits] at h; simp only [eval]
    exact OutP.bind (evalArgs_small md hc he as h) fun vs hv => hc o f vs hv.2
  | .method a f as, h => by
    simp only [fits, Bool.and_eq_true] at h; simp only [eval]
    refine OutP.bind (eval_small md hc he a h.1) fun v hv => OutP.bind (evalArgs_small md hc he as h.2) fun vs hs => ?_
    split
    · exact hc _ _ _ (List.forall_mem_cons.2 ⟨hv, hs.2⟩)
    · trivial
  | .bin _ a b, h => by
    simp only [fits, Bool.and_eq_true] at h; simp only [eval]
    exact OutP.bind (eval_small md hc he a h.1) fun _ _ => OutP.bind (eval_small md hc he b h.2) fun _ _ =>
      binOp_small _ _ _ _
  | .pow a b, h => by
    simp only [fits, Bool.and_eq_true] at h; simp only [eval]
    exact OutP.bind (eval_small md hc he a h.1) fun _ _ => OutP.bind (eval_small md hc he b h.2) fun _ _ =>
      power_small _ _ _
  | .matches_ a p, h => by
    simp only [fits] at h; simp only [eval]
    exact OutP.bind (eval_small md hc he a h) fun v hv =>
      matchPat_small p hv he (fun _ _ => .bool true) (.bool false)
  | .orElse a x b, h => by
    simp only [fits, Bool.and_eq_true] at h; simp only [eval]
    refine OutP.bind (eval_small md hc he a h.1) fun v hv => ?_
    split
    · cases hv with | variantOf _ _ hv => exact hv
    · cases hv with | variantOf _ _ hv => exact leave_small _ (eval_small md hc (he.cons (o := .val _) hv) b h.2)
    · trivial
  | .ite a b d, h => by
    simp only [fits, Bool.and_eq_true] at h; simp only [eval]
    exact OutP.bind (eval_small md hc he a h.1) fun v _ =>
      cond_small v (eval_small md hc he b h.2.1) (eval_small md hc he d h.2.2)
  | .match_ a as, h => by
    simp only [fits, Bool.and_eq_true] at h; simp only [eval]
    exact OutP.bind (eval_small md hc he a h.1) fun v hv => evalArms_small md hc he hv as h.2
  | .block ss, h => by
    simp only [fits] at h; simp only [eval]; exact evalStmts_small md hc he ss h
  | .struct _ fs, h => by
    simp only [fits] at h; simp only [eval]
    exact OutP.bind (evalFields_small md hc he fs h) fun _ hv => .struct _ hv
  | .array es, h => by
    simp only [fits, Bool.and_eq_true] at h; simp only [eval]
    exact OutP.bind (evalArgs_small md hc he es h.2) fun vs hv =>
      .array (Nat.le_trans (Nat.le_of_eq hv.1) (Nat.le_of_ble_eq_true h.1)) hv.2
  | .write ps, h => by
    simp only [fits] at h; simp only [eval]
    exact OutP.bind (evalPieces_small md hc he ps h) fun _ _ => .wrote _

theorem evalArgs_small {len : Nat} (md : Build) {c : Id → Id → List Val → Out Val} (hc : CallSmall len c) {env : Env}
    (he : EnvSmall len env) : (x : Exprs) → fitsArgs len x = true →
    OutP len (fun vs => vs.length = count x ∧ ∀ v ∈ vs, Small len v) (evalArgs md c env x)
  | .nil, _ => by simp only [evalArgs]; exact ⟨rfl, nofun⟩
  | .cons a as, h => by
    simp only [fitsArgs, Bool.and_eq_true] at h; simp only [evalArgs]
    exact OutP.bind (eval_small md hc he a h.1) fun v hv => OutP.bind (evalArgs_small md hc he as h.2) fun vs hs =>
      ⟨by simp only [List.length_cons, hs.1, count]; omega, List.forall_mem_cons.2 ⟨hv, hs.2⟩⟩

theorem evalArms_small {len : Nat} (md : Build) {c : Id → Id → List Val → Out Val} (hc : CallSmall len c) {env : Env}
    (he : EnvSmall len env) {v : Val} (hv : Small len v) : (x : Arms) → fitsArms len x = true →
    OutP len (Small len) (evalArms md c env v x)
  | .nil, _ => by simp only [evalArms]; trivial
  | .cons p a as, h => by
    simp only [fitsArms, Bool.and_eq_true] at h; simp only [evalArms]
    exact matchPat_small p hv he (fun _ hk => eval_small md hc hk a h.1) (evalArms_small md hc he hv as h.2)

theorem evalFields_small {len : Nat} (md : Build) {c : Id → Id → List Val → Out Val} (hc : CallSmall len c) {env : Env}
    (he : EnvSmall len env) : (x : Fields) → fitsFields len x = true →
    OutP len (fun fs => ∀ y v, (y, v) ∈ fs → Small len v) (evalFields md c env x)
  | .nil, _ => by simp only [evalFields]; exact nofun
  | .cons _ a as, h => by
    simp only [fitsFields, Bool.and_eq_true] at h; simp only [evalFields]
    refine OutP.bind (eval_small md hc he a h.1) fun v hv => OutP.bind (evalFields_small md hc he as h.2) fun vs hs => ?_
    intro y w hw
    rcases List.mem_cons.1 hw with e | hw
    · cases e; exact hv
    · exact hs y w hw

theorem evalPieces_small {len : Nat} (md : Build) {c : Id → Id → List Val → Out Val} (hc : CallSmall len c) {env : Env}
    (he : EnvSmall len env) : (x : Pieces) → fitsPieces len x = true →
    OutP len (fun _ => True) (evalPieces md c env x)
  | .nil, _ => by simp only [evalPieces]; trivial
  | .text _ ps, h => by
    simp only [fitsPieces] at h; simp only [evalPieces]
    exact OutP.bind (evalPieces_small md hc he ps h) fun _ _ => trivial
  | .arg s a ps, h => by
    simp only [fitsPieces, Bool.and_eq_true] at h; simp only [evalPieces]
    exact OutP.bind (eval_small md hc he a h.1) fun v hv => OutP.bind (showVal_small hc s hv) fun _ _ =>
      OutP.bind (evalPieces_small md hc he ps h.2) fun _ _ => trivial

theorem evalStmts_small {len : Nat} (md : Build) {c : Id → Id → List Val → Out Val} (hc : CallSmall len c) {env : Env}
    (he : EnvSmall len env) : (x : Stmts) → fitsStmts len x = true → OutP len (Small len) (evalStmts md c env x)
  | .done a, h => by simp only [fitsStmts] at h; simp only [evalStmts]; exact eval_small md hc he a h
  | .let_ _ _ a ss, h => by
    simp only [fitsStmts, Bool.and_eq_true] at h; simp only [evalStmts]
    exact OutP.bind (eval_small md hc he a h.1) fun _ hv =>
      evalStmts_small md hc (he.cons (o := .val _) (coerce_small _ _ hv)) ss h.2
  | .letClosure _ a ss, h => by
    simp only [fitsStmts, Bool.and_eq_true] at h; simp only [evalStmts]
    exact evalStmts_small md hc (he.cons (eval_small md hc he a h.1)) ss h.2
  | .letFn o x ps b ss, h => by
    simp only [fitsStmts, Bool.and_eq_true] at h; simp only [evalStmts]
    refine evalStmts_small md (local_small hc o x fun args ha => ?_) he ss h.2
    split
    · rename_i hb
      exact leave_small _ (eval_small md hc ((bindParams_small ha hb).append he) b h.1)
    · trivial
  | .expr a ss, h => by
    simp only [fitsStmts, Bool.and_eq_true] at h; simp only [evalStmts]
    exact OutP.bind (eval_small md hc he a h.1) fun _ _ => evalStmts_small md hc he ss h.2
  | .assert a ss, h => by
    simp only [fitsStmts, Bool.and_eq_true] at h; simp only [evalStmts]
    exact OutP.bind (eval_small md hc he a h.1) fun v _ => cond_small v (evalStmts_small md hc he ss h.2) trivial
  | .assertEq _ a b ss, h => by
    simp only [fitsStmts, Bool.and_eq_true] at h; simp only [evalStmts]
    exact OutP.bind (eval_small md hc he a h.1) fun v _ => OutP.bind (eval_small md hc he b h.2.1) fun w _ =>
      cond_small _ (evalStmts_small md hc he ss h.2.2) trivial
  | .forRevEnum idx elt a x b ss, h => by
    simp only [fitsStmts, Bool.and_eq_true] at h; simp only [evalStmts]
    refine OutP.bind (eval_small md hc he a h.1) fun v hv => ?_
    split
    · cases hv with
      | array _ hv =>
        exact OutP.bind (forLoop_small (fun _ hk => eval_small md hc hk b h.2.1) idx elt x
          (fun w hw => hv w (List.mem_reverse.1 hw)) 0 he) fun _ hk => evalStmts_small md hc hk ss h.2.2
    · trivial

end

/-- Calls of a program without long array expressions. -/
theorem call_small {len : Nat} {fns : List Fn} (hf : ∀ fn ∈ fns, fits len fn.body = true) (md : Build) (d : Nat) :
    CallSmall len (call fns md d) := by
  induction d with
  | zero => intro o f args _; trivial
  | succ d ih =>
    intro o f args ha
    simp only [call]
    split
    · rename_i fn hn
      have hm : fn ∈ fns := by
        clear ih ha
        induction fns with
        | nil => cases hn
        | cons g fns ihf =>
          simp only [find] at hn
          split at hn
          · cases hn; exact List.mem_cons_self
          · exact List.mem_cons_of_mem _ (ihf (fun fn h => hf fn (List.mem_cons_of_mem _ h)) hn)
      simp only [run]
      split
      · rename_i hb
        exact leave_small _ (eval_small md ih (bindParams_small ha hb) _ (hf fn hm))
      · trivial
    · trivial

end Raki.Source
