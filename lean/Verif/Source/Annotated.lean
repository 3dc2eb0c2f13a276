import Verif.Source.Annotate
import Verif.Source.Static
import Verif.Source.TypingSound
/-!
# An annotated program does the same

Where the evaluator that goes by values is not stuck on a program, the evaluator that goes by types does the same on
the annotated program, up to literals whose type the first one does not know yet.
-/

namespace Raki.Source

set_option linter.constructorNameAsVariable false

mutual

/-- The values are the same but for literals of the first one, which have the type they ought to have in the second. -/
inductive Sim : T → Val → Val → Prop
  | u8 (n : Nat) : Sim (.num .u8 true) (.u8 n) (.u8 n)
  | u16 (x : BitVec 16) : Sim (.num .u16 true) (.u16 x) (.u16 x)
  | u32 (x : BitVec 32) : Sim (.num .u32 true) (.u32 x) (.u32 x)
  | usize (n : Nat) : Sim (.num .usize true) (.usize n) (.usize n)
  | i32 (z : Int) : Sim (.num .i32 true) (.i32 z) (.i32 z)
  | lit (k : Kind) {n : Nat} {w : Val} : n < 2 ^ k.bits → w = coerce k.ty (.lit n) → Sim (.num k true) (.lit n) w
  | bool (b : Bool) : Sim .bool (.bool b) (.bool b)
  | str (s : String) : Sim .str (.str s) (.str s)
  | unit : Sim .unit .unit .unit
  | text (cs : List String) : Sim .text (.wrote cs) (.wrote cs)
  | none (a : T) : Sim (.option a) (.variant .Option .None) (.variant .Option .None)
  | some {a v w} : Sim a v w → Sim (.option a) (.variantOf .Option .Some v) (.variantOf .Option .Some w)
  | ok {a v w} (e : T) : Sim a v w → Sim (.result a e) (.variantOf .Result .Ok v) (.variantOf .Result .Ok w)
  | err {e v w} (a : T) : Sim e v w → Sim (.result a e) (.variantOf .Result .Err v) (.variantOf .Result .Err w)
  | variant {ty c vs} : variants ty = Option.some vs → assoc vs c = Option.some Option.none →
      Sim (.named ty) (.variant ty c) (.variant ty c)
  | variantOf {ty c x v w vs} : variants ty = Option.some vs → assoc vs c = Option.some (Option.some x) →
      Sim (.named x) v w → Sim (.named ty) (.variantOf ty c v) (.variantOf ty c w)
  | struct {ty fs gs ds} : membersOf ty = Option.some ds → SimFields ds fs gs →
      Sim (.named ty) (.struct ty fs) (.struct ty gs)
  | array {a vs ws} : SimAll a vs ws → Sim (.array a) (.array vs) (.array ws)

/-- The same for fields. -/
inductive SimFields : List (Id × T) → List (Id × Val) → List (Id × Val) → Prop
  | nil : SimFields [] [] []
  | cons {x a ds v w fs gs} : Sim a v w → SimFields ds fs gs →
      SimFields ((x, a) :: ds) ((x, v) :: fs) ((x, w) :: gs)

/-- The same for elements of an array. -/
inductive SimAll : T → List Val → List Val → Prop
  | nil {a} : SimAll a [] []
  | cons {a v w vs ws} : Sim a v w → SimAll a vs ws → SimAll a (v :: vs) (w :: ws)

end

/-- Values of the given types. -/
inductive Sims : List T → List Val → List Val → Prop
  | nil : Sims [] [] []
  | cons {a as v w vs ws} : Sim a v w → Sims as vs ws → Sims (a :: as) (v :: vs) (w :: ws)

/-- The second does what the first does, if that is not stuck. -/
def OutS (ret : T) {α : Type} (q : α → α → Prop) : Out α → Out α → Prop
  | .stuck, _ => True
  | .val a, .val b => q a b
  | .ret v, .ret w => Sim ret v w
  | .panic, .panic => True
  | _, _ => False

theorem OutS.bind {ret : T} {α β : Type} {q : α → α → Prop} {r : β → β → Prop} {x y : Out α} {f g : α → Out β}
    (hx : OutS ret q x y) (hf : ∀ a b, q a b → OutS ret r (f a) (g b)) : OutS ret r (x >>= f) (y >>= g) := by
  cases x <;> cases y <;> first | exact hx.elim | exact hf _ _ hx | exact hx | trivial

theorem sim_never {v w : Val} (h : Sim .never v w) : False := by cases h

theorem OutS.mono {ret : T} {α : Type} {q r : α → α → Prop} {x y : Out α} (h : OutS .never q x y)
    (hq : ∀ a b, q a b → r a b) : OutS ret r x y := by
  cases x <;> cases y <;> first | exact h.elim | exact hq _ _ h | exact (sim_never h).elim | trivial

/-- The variables hold the same. -/
inductive EnvS (ret : T) : TEnv → Env → Env → Prop
  | nil : EnvS ret [] [] []
  | cons {x a Γ o o' env env'} : OutS ret (Sim a) o o' → EnvS ret Γ env env' →
      EnvS ret ((x, a) :: Γ) ((x, o) :: env) ((x, o') :: env')

theorem EnvS.val {ret : T} {x : Id} {a : T} {Γ : TEnv} {v w : Val} {env env' : Env} (hv : Sim a v w)
    (h : EnvS ret Γ env env') : EnvS ret ((x, a) :: Γ) ((x, .val v) :: env) ((x, .val w) :: env') :=
  .cons (o := .val v) (o' := .val w) hv h

theorem EnvS.get {ret : T} {Γ : TEnv} {env env' : Env} (h : EnvS ret Γ env env') {x : Id} {a : T}
    (hx : assoc Γ x = some a) : OutS ret (Sim a) (Env.get env x) (Env.get env' x) := by
  induction h with
  | nil => cases hx
  | @cons y b Γ o o' env env' ho h ih =>
    simp only [assoc, same] at hx
    simp only [Env.get]
    by_cases he : x = y
    · simp only [he, decide_true] at hx
      cases hx
      simpa only [he, if_true] using ho
    · simp only [he, decide_false] at hx
      simpa only [he, if_false] using ih hx

theorem EnvS.set {ret : T} {Γ : TEnv} {env env' : Env} (h : EnvS ret Γ env env') {x : Id} {a : T}
    (hx : assoc Γ x = some a) {v w : Val} (hv : Sim a v w) : EnvS ret Γ (Env.set env x v) (Env.set env' x w) := by
  induction h with
  | nil => cases hx
  | @cons y b Γ o o' env env' ho h ih =>
    simp only [assoc, same] at hx
    simp only [Env.set]
    by_cases he : x = y
    · simp only [he, decide_true] at hx
      cases hx
      simpa only [he, if_true] using EnvS.val hv h
    · simp only [he, decide_false] at hx
      simpa only [he, if_false] using EnvS.cons ho (ih hx)

/-- The functions that may be called do the same. -/
def CallS (sig : Sig) (c c' : Id → Id → List Val → Out Val) : Prop :=
  ∀ o f ps r, (ps, r) ∈ sig o f → ∀ vs ws, Sims ps vs ws → OutS .never (Sim r) (c o f vs) (c' o f ws)

/-! ## Literals -/

theorem coerce_sim {t : Ty} {a : T} (h : Writes t a) : ∀ {v w : Val}, Sim a v w → Sim a (coerce t v) w := by
  induction h with
  | num k =>
    intro v w hv
    cases hv with
    | lit _ hn hw => cases hw; cases k <;> constructor
    | _ => constructor
  | option _ ih =>
    intro v w hv
    cases hv with
    | none => exact .none _
    | some hv => exact .some (ih hv)
  | result e _ ih =>
    intro v w hv
    cases hv with
    | ok _ hv => exact .ok _ (ih hv)
    | err _ hv => exact .err _ hv
  | @array t a _ ih =>
    intro v w hv
    cases hv with
    | @array _ vs ws hv =>
      have h : ∀ {vs ws : List Val}, SimAll a vs ws → SimAll a (vs.map (coerce t)) ws := by
        intro vs
        induction vs with
        | nil => intro ws h; cases h; exact .nil
        | cons v vs ihv => intro ws h; cases h with | cons h hs => exact .cons (ih h) (ihv hs)
      exact .array (by simpa using h hv)
  | other =>
    intro v w hv
    have h (v : Val) : coerce .other v = v := by cases v <;> rfl
    rwa [h]

theorem amount_sim {k : Kind} {v w : Val} (h : Sim (.num k true) v w) (hk : k.unsigned = true) :
    ∃ n, unsigned v = some n ∧ Static.amount w = some n := by
  cases h with
  | i32 => cases hk
  | lit _ hn hw =>
    cases hw
    cases k with
    | i32 => cases hk
    | u8 => exact ⟨_, rfl, rfl⟩
    | usize => exact ⟨_, rfl, rfl⟩
    | u16 => exact ⟨_, rfl, by simp [Static.amount, coerce, Kind.ty, Nat.mod_eq_of_lt (show _ < 65536 from hn)]⟩
    | u32 => exact ⟨_, rfl, by simp [Static.amount, coerce, Kind.ty, Nat.mod_eq_of_lt (show _ < 4294967296 from hn)]⟩
  | _ => exact ⟨_, rfl, rfl⟩

theorem unsigned_sim {k : Kind} {v w : Val} (h : Sim (.num k true) v w) (hk : k.unsigned = true) :
    ∃ n, unsigned v = some n ∧ unsigned w = some n := by
  cases h with
  | i32 => cases hk
  | lit _ hn hw =>
    cases hw
    cases k with
    | i32 => cases hk
    | u8 => exact ⟨_, rfl, rfl⟩
    | usize => exact ⟨_, rfl, rfl⟩
    | u16 => exact ⟨_, rfl, by simp [unsigned, coerce, Kind.ty, Nat.mod_eq_of_lt (show _ < 65536 from hn)]⟩
    | u32 => exact ⟨_, rfl, by simp [unsigned, coerce, Kind.ty, Nat.mod_eq_of_lt (show _ < 4294967296 from hn)]⟩
  | _ => exact ⟨_, rfl, rfl⟩

theorem ofRust_sim {ret : T} {α : Type} {k : α → Val} {t : T} (hk : ∀ a, Sim t (k a) (k a)) (r : RustM α) :
    OutS ret (Sim t) (.ofRust k r) (.ofRust k r) := by
  cases r with
  | ok a => exact hk a
  | err => trivial
  | panic => trivial

theorem arith_sim {ret : T} (m : Mode) {op : BinOp} {k : Kind} {t : T} (h : arithT op k = some t) {v v' w w' : Val}
    (hv : Sim (.num k true) v v') (hw : Sim (.num k true) w w') :
    OutS ret (Sim t) (binOp m op v w) (Static.binOp m op v' w') := by
  cases op <;> cases k <;> cases h <;> cases hv <;> cases hw <;> (try subst_vars) <;>
    first
    | exact ofRust_sim (fun _ => .u16 _) _
    | exact ofRust_sim (fun _ => .u32 _) _
    | exact ofRust_sim (fun _ => .i32 _) _
    | exact Sim.u16 _
    | exact Sim.u32 _
    | exact Sim.usize _
    | exact Sim.i32 _
    | exact Sim.bool _
    | exact True.intro

theorem shift_sim {ret : T} (m : Mode) {op : BinOp} {k : Kind} {t : T} (h : shiftT op t = some t)
    (hk : k.unsigned = true) {v v' w w' : Val} (hv : Sim t v v') (hw : Sim (.num k true) w w') :
    OutS ret (Sim t) (binOp m op v w) (Static.binOp m op v' w') := by
  obtain ⟨n, h1, h2⟩ := amount_sim hw hk
  unfold shiftT at h
  split at h <;> simp only [binOp, Static.binOp, h1, h2] <;> first | cases h | skip
  all_goals cases hv
  all_goals first
    | exact ofRust_sim (fun _ => .u16 _) _
    | exact ofRust_sim (fun _ => .u32 _) _
    | exact ofRust_sim (fun _ => .i32 _) _
    | exact True.intro

theorem power_sim {ret : T} (m : Mode) {t : T} (h : powT t (some (.num .u32 true)) = some t) {v v' w w' : Val}
    (hv : Sim t v v') (hw : Sim (.num .u32 true) w w') :
    OutS ret (Sim t) (power m v (coerce .u32 w)) (power m v' w') := by
  have hw : ∃ x, coerce .u32 w = .u32 x ∧ w' = .u32 x := by
    cases hw with
    | u32 x => exact ⟨x, rfl, rfl⟩
    | lit _ _ hw => cases hw; exact ⟨_, rfl, rfl⟩
  obtain ⟨x, h1, h2⟩ := hw
  rw [h1, h2]
  unfold powT at h
  split at h
  all_goals first | cases h | skip
  all_goals cases hv
  all_goals first
    | exact ofRust_sim (fun _ => .u16 _) _
    | exact ofRust_sim (fun _ => .u32 _) _
    | exact ofRust_sim (fun _ => .i32 _) _
    | exact True.intro

theorem neg_sim {ret : T} (m : Mode) {v w : Val} (h : Sim (.num .i32 true) v w) :
    OutS ret (Sim (.num .i32 true)) (negVal m v) (Static.negVal m w) := by
  cases h with
  | i32 z => exact ofRust_sim (fun _ => .i32 _) _
  | @lit _ n _ hn hw =>
    cases hw
    have hn : n < 2 ^ 31 := hn
    cases m with
    | checked =>
      have : chkI32 (-(n : Int)) = .ok (-(n : Int)) := by simp only [chkI32]; rw [if_pos]; omega
      simp only [negVal, Static.negVal, coerce, Kind.ty, this, Out.ofRust]
      exact .i32 _
    | wrapping =>
      have : Release.chkI32 (-(n : Int)) = .ok (-(n : Int)) := by
        simp only [Release.chkI32]
        congr 1
        rw [BitVec.toInt_ofInt, Int.bmod_eq_of_le] <;> omega
      simp only [negVal, Static.negVal, coerce, Kind.ty, this, Out.ofRust]
      exact .i32 _

theorem cast_sim {ret : T} (p : PtrWidth) {k l : Kind} (h : Casts k l) {v w : Val} (hv : Sim (.num k true) v w) :
    OutS ret (Sim (.num l true)) (castTo p v l.ty) (castTo p w l.ty) := by
  cases h <;> cases hv <;> first | exact Sim.usize _ | exact Sim.i32 _ | trivial

theorem inRange_sim {k : Nat → Val} {a : T} (hk : ∀ n, Sim a (k n) (k n)) (bound n : Nat) :
    Sim (.result a .unit) (inRange k bound n) (inRange k bound n) := by
  unfold inRange
  split
  · exact .ok _ (hk n)
  · exact .err _ .unit

theorem tryFrom_sim {ret : T} {t : Ty} {k : Kind} {a : T} (h : tryFromT t (.num k true) = some a) {v w : Val}
    (hv : Sim (.num k true) v w) : OutS ret (Sim a) (tryFromTo t v) (tryFromTo t w) := by
  unfold tryFromT at h
  split at h
  case h_4 => cases h
  all_goals
    rename_i hu
    obtain ⟨n, h1, h2⟩ := unsigned_sim hv hu
    cases h
    simp only [tryFromTo, h1, h2]
    exact inRange_sim (fun _ => by constructor) _ _

theorem from_sim {ret : T} {v w : Val} (hv : Sim (.num .u16 true) v w) :
    OutS ret (Sim (.num .u32 true)) (fromTo .u32 v) (fromTo .u32 w) := by
  cases hv with
  | u16 x => exact Sim.u32 _
  | lit => trivial

theorem into_sim {ret : T} {v w : Val} (hv : Sim (.num .u8 true) v w) :
    OutS ret (Sim (.num .usize true)) (intoTo v) (intoTo w) := by
  cases hv with
  | u8 x => exact Sim.usize _
  | lit => trivial

theorem unwrapOption_sim {ret t : T} {v w : Val} (hv : Sim (.option t) v w) :
    OutS ret (Sim t) (unwrapVal v) (unwrapVal w) := by
  cases hv with
  | none => trivial
  | some h => exact h

theorem unwrapResult_sim {ret t a : T} {v w : Val} (hv : Sim (.result t a) v w) :
    OutS ret (Sim t) (unwrapVal v) (unwrapVal w) := by
  cases hv with
  | ok _ h => exact h
  | err _ h => trivial

theorem question_sim {t a b : T} {v w : Val} (hv : Sim (.result t a) v w) :
    OutS (.result b a) (Sim t) (questionVal v) (questionVal w) := by
  cases hv with
  | ok _ h => exact h
  | err _ h => exact Sim.err _ h

theorem variant_sim {t : T} {ty c : Id} (h : payload t ty c = some none) : Sim t (.variant ty c) (.variant ty c) := by
  unfold payload at h
  split at h
  · split at h
    · exact .none _
    · cases h
    · cases h
  · split at h <;> cases h
  · split at h
    · rename_i hs
      cases same_eq hs
      obtain ⟨vs, hvs, h⟩ := Option.bind_eq_some_iff.1 h
      obtain ⟨y, hy, h⟩ := Option.map_eq_some_iff.1 h
      cases y with
      | none => exact .variant hvs hy
      | some y => cases h
    · cases h
  · cases h

theorem variantOf_sim {t a : T} {ty c : Id} (h : payload t ty c = some (some a)) {v w : Val} (hv : Sim a v w) :
    Sim t (.variantOf ty c v) (.variantOf ty c w) := by
  unfold payload at h
  split at h
  · split at h
    · cases h
    · cases h; exact .some hv
    · cases h
  · split at h
    · cases h; exact .ok _ hv
    · cases h; exact .err _ hv
    · cases h
  · split at h
    · rename_i hs
      cases same_eq hs
      obtain ⟨vs, hvs, h⟩ := Option.bind_eq_some_iff.1 h
      obtain ⟨y, hy, h⟩ := Option.map_eq_some_iff.1 h
      cases y with
      | none => cases h
      | some y => cases h; exact .variantOf hvs hy hv
    · cases h
  · cases h

theorem getField_sim {ret : T} {ds : List (Id × T)} {fs gs : List (Id × Val)} (h : SimFields ds fs gs) {x : Id} {t : T}
    (hx : assoc ds x = some t) : OutS ret (Sim t) (getField fs x) (getField gs x) := by
  induction ds generalizing fs gs with
  | nil => cases hx
  | cons d ds ih =>
    cases h with
    | @cons y a _ v w fs gs hv h =>
      simp only [assoc, same] at hx
      simp only [getField]
      by_cases he : x = y
      · simp only [he, decide_true] at hx
        cases hx
        rw [if_pos he, if_pos he]
        exact hv
      · simp only [he, decide_false] at hx
        simpa only [he, if_false] using ih h hx

theorem payload_sim {t : T} {ty c : Id} {q : Option T} (h : payload t ty c = some q) {v w : Val} (hv : Sim t v w) :
    (∃ d, v = .variant ty d ∧ w = .variant ty d) ∨
      ∃ d x y, v = .variantOf ty d x ∧ w = .variantOf ty d y ∧ (d = c → ∃ a, q = some a ∧ Sim a x y) := by
  unfold payload at h
  split at h
  · split at h
    · cases hv with
      | none => exact .inl ⟨_, rfl, rfl⟩
      | some _ => exact .inr ⟨_, _, _, rfl, rfl, nofun⟩
    · cases h
      cases hv with
      | none => exact .inl ⟨_, rfl, rfl⟩
      | some hv => exact .inr ⟨_, _, _, rfl, rfl, fun _ => ⟨_, rfl, hv⟩⟩
    · cases h
  · split at h
    · cases h
      cases hv with
      | ok _ hv => exact .inr ⟨_, _, _, rfl, rfl, fun _ => ⟨_, rfl, hv⟩⟩
      | err _ _ => exact .inr ⟨_, _, _, rfl, rfl, nofun⟩
    · cases h
      cases hv with
      | ok _ hv => exact .inr ⟨_, _, _, rfl, rfl, nofun⟩
      | err _ hv => exact .inr ⟨_, _, _, rfl, rfl, fun _ => ⟨_, rfl, hv⟩⟩
    · cases h
  · split at h
    · rename_i hs
      cases same_eq hs
      obtain ⟨vs, hvs, h⟩ := Option.bind_eq_some_iff.1 h
      obtain ⟨y, hy, h⟩ := Option.map_eq_some_iff.1 h
      cases hv with
      | variant _ _ => exact .inl ⟨_, rfl, rfl⟩
      | variantOf h1 h2 hw =>
        refine .inr ⟨_, _, _, rfl, rfl, ?_⟩
        rintro rfl
        rw [hvs] at h1; cases h1
        rw [hy] at h2; cases h2
        exact ⟨_, h.symm, hw⟩
      | struct hf _ => rw [variants_struct hf] at hvs; cases hvs
    · cases h
  · cases h

theorem unsignedT_sim {t : T} {v w : Val} (h : Sim t v w) (ht : t.unsigned = true) :
    ∃ n, unsigned v = some n ∧ unsigned w = some n := by
  cases t with
  | num k b =>
    cases b with
    | true => exact unsigned_sim h ht
    | false => cases h
  | int => cases h
  | _ => cases ht

theorem matchPat_sim {ret : T} {α : Type} {q : α → α → Prop} (pat : Pat) {t : T} {v w : Val} (hv : Sim t v w)
    {Δ : TEnv} (hp : patT t pat = some Δ) {Γ : TEnv} {env env' : Env} (he : EnvS ret Γ env env')
    {k k' : Env → Out α} {fail fail' : Out α} (hk : ∀ e e', EnvS ret (Δ ++ Γ) e e' → OutS ret q (k e) (k' e'))
    (hf : OutS ret q fail fail') : OutS ret q (matchPat v env pat k fail) (matchPat w env' pat k' fail') := by
  induction pat generalizing t v w Δ fail fail' with
  | wild => cases hp; exact hk _ _ he
  | var x => cases hp; exact hk _ _ (he.val hv)
  | lit n =>
    obtain ⟨hu, rfl⟩ := given_some hp
    obtain ⟨m, h1, h2⟩ := unsignedT_sim hv hu
    simp only [matchPat, h1, h2]
    split
    · exact hk _ _ he
    · exact hf
  | range lo hi =>
    obtain ⟨hu, rfl⟩ := given_some hp
    obtain ⟨m, h1, h2⟩ := unsignedT_sim hv hu
    simp only [matchPat, h1, h2]
    split
    · exact hk _ _ he
    · exact hf
  | ctor ty c =>
    simp only [patT] at hp
    split at hp
    · rename_i hq
      cases hp
      obtain ⟨d, rfl, rfl⟩ | ⟨d, x, y, rfl, rfl, h⟩ := payload_sim hq hv
      · simp only [matchPat, if_true]
        split
        · exact hk _ _ he
        · exact hf
      · simpa only [matchPat, if_true] using hf
    · cases hp
  | ctor1 ty c p ih =>
    simp only [patT] at hp
    split at hp
    · rename_i a hq
      obtain ⟨d, rfl, rfl⟩ | ⟨d, x, y, rfl, rfl, h⟩ := payload_sim hq hv
      · simpa only [matchPat, if_true] using hf
      · simp only [matchPat, if_true]
        split
        · rename_i hc
          obtain ⟨_, hb, h⟩ := h hc.symm
          cases hb
          exact ih h hp hk hf
        · exact hf
    · cases hp
  | or p r ihp ihr =>
    simp only [patT] at hp
    split at hp
    · rename_i h1 h2
      cases hp
      exact ihp hv h1 hk (ihr hv h2 hk hf)
    · cases hp

theorem bindOut_assoc {α β γ : Type} (x : Out α) (f : α → Out β) (g : β → Out γ) :
    (x >>= fun a => f a >>= g) = (x >>= f) >>= g := by cases x <;> rfl

theorem showVal_sim (md : Build) {sig : Sig} {c c' : Id → Id → List Val → Out Val} (hc : CallS sig c c') {ret : T}
    {s : Spec} {a : T} {e e' : Expr} (h : Shows sig s a e e') {x : Out Val} {env : Env}
    (hx : OutS ret (Sim a) x (Static.eval md c' env e)) :
    OutS ret (fun a b => a = b) (x >>= showVal c s) (Static.eval md c' env e' >>= Static.showVal s) := by
  cases h with
  | str =>
    refine OutS.bind hx fun v w hv => ?_
    cases hv; rfl
  | usize =>
    refine OutS.bind hx fun v w hv => ?_
    cases hv with
    | usize n => cases s <;> rfl
    | lit => cases s <;> trivial
  | i32 =>
    refine OutS.bind hx fun v w hv => ?_
    cases hv with
    | i32 n => cases s <;> rfl
    | lit => cases s <;> trivial
  | @named t _ hm =>
    have hr : (Static.eval md c' env (.call t .fmt (.cons e .nil)) >>= Static.showVal .display) =
        Static.eval md c' env e >>= fun w => c' t .fmt [w] >>= Static.showVal .display := by
      simp only [Static.eval, Static.evalArgs]
      cases Static.eval md c' env e <;> rfl
    rw [hr]
    refine OutS.bind hx fun v w hv => ?_
    have hout := hc t .fmt _ _ hm [v] [w] (.cons hv .nil)
    have hout : OutS ret (Sim .text) _ _ := hout.mono fun _ _ h => h
    cases hv with
    | variant _ _ =>
      refine OutS.bind hout fun a b hab => ?_
      cases hab; rfl
    | variantOf _ _ _ =>
      refine OutS.bind hout fun a b hab => ?_
      cases hab; rfl
    | struct _ _ => trivial

theorem cond_sim {ret : T} {α : Type} {q : α → α → Prop} {v w : Val} (hv : Sim .bool v w) {a a' b b' : Out α}
    (ha : OutS ret q a a') (hb : OutS ret q b b') : OutS ret q (cond v a b) (cond w a' b') := by
  cases hv with
  | bool b => cases b <;> assumption

theorem forLoop_sim {ret : T} {Γ : TEnv} {a : T} {idx elt x : Id} {step step' : Env → Out Val}
    (hs : ∀ e e', EnvS ret ((elt, a) :: (idx, .num .usize true) :: Γ) e e' →
      OutS ret (Sim (.num .u32 true)) (step e) (step' e'))
    (hx : assoc Γ x = some (.num .u32 true)) {vs ws : List Val} (hv : SimAll a vs ws) {n : Nat} {env env' : Env}
    (he : EnvS ret Γ env env') :
    OutS ret (EnvS ret Γ) (forLoop step idx elt x vs n env) (forLoop step' idx elt x ws n env') := by
  induction vs generalizing n env env' ws with
  | nil => cases hv; exact he
  | cons v vs ih =>
    cases hv with
    | cons hv hvs =>
      simp only [forLoop]
      refine OutS.bind (he.get hx) fun y y' hy => OutS.bind (hs _ _ ((he.val (Sim.usize n)).val hv)) fun z z' hz => ?_
      cases hy with
      | u32 y =>
        cases hz with
        | u32 z => exact ih hvs (he.set hx (.u32 _))
        | lit => trivial
      | lit => trivial

theorem simAll_append {a : T} {vs ws vs' ws' : List Val} (h : SimAll a vs ws) (h' : SimAll a vs' ws') :
    SimAll a (vs ++ vs') (ws ++ ws') := by
  induction vs generalizing ws with
  | nil => cases h; exact h'
  | cons v vs ih => cases h with | cons hv h => exact .cons hv (ih h)

theorem simAll_reverse {a : T} {vs ws : List Val} (h : SimAll a vs ws) : SimAll a vs.reverse ws.reverse := by
  induction vs generalizing ws with
  | nil => cases h; exact .nil
  | cons v vs ih =>
    cases h with
    | cons hv h =>
      rw [List.reverse_cons, List.reverse_cons]
      exact simAll_append (ih h) (.cons hv .nil)

theorem sims_all {a : T} {ts : List T} {vs ws : List Val} (h : Sims ts vs ws) (ht : ∀ t ∈ ts, t = a) :
    SimAll a vs ws := by
  induction ts generalizing vs ws with
  | nil => cases h; exact .nil
  | cons t ts ih =>
    cases h with
    | cons hv h =>
      cases ht t List.mem_cons_self
      exact .cons hv (ih h fun t hm => ht t (List.mem_cons_of_mem _ hm))

theorem owner_sim {a : T} {o : Id} (ho : a.owner = some o) {v w : Val} (h : Sim a v w) :
    typeOf v = some o ∨ typeOf v = none := by
  cases h <;> cases ho <;> first | exact .inl rfl | exact .inr rfl

/-! ## Expressions -/

mutual

theorem ann_sim (md : Build) {sig : Sig} {c c' : Id → Id → List Val → Out Val} (hc : CallS sig c c') {ret : T} :
    ∀ (e : Expr) {Γ : TEnv} {t : T} {e' : Expr} {env env' : Env}, Ann sig ret Γ e t e' → EnvS ret Γ env env' →
      OutS ret (Sim t) (eval md c env e) (Static.eval md c' env' e')
  | .lit n, _, _, _, _, _, h, _ => by
    cases h with
    | lit k hn => cases k <;> exact Sim.lit _ hn rfl
  | .litT n ty, _, _, _, _, _, h, _ => by
    cases h with
    | litT k hn => cases k <;> constructor
  | .unit, _, _, _, _, _, h, _ => by cases h; exact Sim.unit
  | .bool b, _, _, _, _, _, h, _ => by cases h; exact Sim.bool b
  | .str s, _, _, _, _, _, h, _ => by cases h; exact Sim.str s
  | .var x, _, _, _, _, _, h, he => by cases h with | var hx => exact he.get hx
  | .callClosure x, _, _, _, _, _, h, he => by cases h with | callClosure hx => exact he.get hx
  | .variant ty d, _, _, _, _, _, h, _ => by cases h with | variant hp => exact variant_sim hp
  | .variantOf ty d e, _, _, _, _, _, h, he => by
    cases h with
    | variantOf hp h => exact OutS.bind (ann_sim md hc e h he) fun a b hab => variantOf_sim hp hab
  | .call o f es, _, _, _, _, _, h, he => by
    cases h with
    | call hm h =>
      exact OutS.bind (annArgs_sim md hc es h he) fun a b hab => (hc o f _ _ hm a b hab).mono fun _ _ h => h
  | .method e f es, _, _, _, _, _, h, he => by
    cases h with
    | @method _ _ _ _ a o ps t e' es' h ho hm hs =>
      have h1 := ann_sim md hc e h he
      have h2 := annArgs_sim md hc es hs he
      simp only [eval, Static.eval, Static.evalArgs]
      generalize eval md c _ e = x at *
      generalize Static.eval md c' _ e' = x' at *
      generalize evalArgs md c _ es = y at *
      generalize Static.evalArgs md c' _ es' = y' at *
      cases x <;> cases x' <;> first | exact h1.elim | exact h1 | trivial | skip
      cases y <;> cases y' <;> first | exact h2.elim | exact h2 | trivial | skip
      rename_i v v' vs vs'
      simp only [bind, Out.bind]
      obtain hv | hv := owner_sim ho h1 <;> rw [hv]
      · exact (hc o f _ _ hm _ _ (.cons h1 h2)).mono fun _ _ h => h
      · trivial
  | .field e x, _, _, _, _, _, h, he => by
    cases h with
    | field h hd hx =>
      refine OutS.bind (ann_sim md hc e h he) fun a b hab => ?_
      cases hab with
      | struct hd' hf => rw [hd] at hd'; cases hd'; exact getField_sim hf hx
      | _ => trivial
  | .bin op a b, _, _, _, _, _, h, he => by
    cases h with
    | arith h1 h2 ht =>
      exact OutS.bind (ann_sim md hc a h1 he) fun _ _ hx => OutS.bind (ann_sim md hc b h2 he) fun _ _ hy =>
        arith_sim _ ht hx hy
    | shift h1 h2 hk ht =>
      exact OutS.bind (ann_sim md hc a h1 he) fun _ _ hx => OutS.bind (ann_sim md hc b h2 he) fun _ _ hy =>
        shift_sim _ ht hk hx hy
  | .neg e, _, _, _, _, _, h, he => by
    cases h with
    | neg h => exact OutS.bind (ann_sim md hc e h he) fun _ _ hx => neg_sim _ hx
  | .matches_ e p, _, _, _, _, _, h, he => by
    cases h with
    | matches_ h hp =>
      exact OutS.bind (ann_sim md hc e h he) fun _ _ hx => matchPat_sim p hx hp he (fun _ _ _ => Sim.bool true)
        (Sim.bool false)
  | .cast e ty, _, _, _, _, _, h, he => by
    cases h with
    | cast h hk => exact OutS.bind (ann_sim md hc e h he) fun _ _ hx => cast_sim _ hk hx
  | .tryFrom ty e, _, _, _, _, _, h, he => by
    cases h with
    | tryFrom h hk => exact OutS.bind (ann_sim md hc e h he) fun _ _ hx => tryFrom_sim hk hx
  | .from_ ty e, _, _, _, _, _, h, he => by
    cases h with
    | from_ h => exact OutS.bind (ann_sim md hc e h he) fun _ _ hx => from_sim hx
  | .pow a b, _, _, _, _, _, h, he => by
    cases h with
    | pow h1 h2 ht =>
      exact OutS.bind (ann_sim md hc a h1 he) fun _ _ hx => OutS.bind (ann_sim md hc b h2 he) fun _ _ hy =>
        power_sim _ ht hx hy
  | .unwrap e, _, _, _, _, _, h, he => by
    cases h with
    | unwrapOption h => exact OutS.bind (ann_sim md hc e h he) fun _ _ hx => unwrapOption_sim hx
    | unwrapResult h => exact OutS.bind (ann_sim md hc e h he) fun _ _ hx => unwrapResult_sim hx
  | .orElse _ _ _, _, _, _, _, _, h, _ => by cases h
  | .into e, _, _, _, _, _, h, he => by
    cases h with
    | into h => exact OutS.bind (ann_sim md hc e h he) fun _ _ hx => into_sim hx
  | .question e, _, _, _, _, _, h, he => by
    cases h with
    | question h hr =>
      subst hr
      exact OutS.bind (ann_sim md hc e h he) fun _ _ hx => question_sim hx
  | .ret e, _, _, _, _, _, h, he => by
    cases h with
    | ret h => exact OutS.bind (ann_sim md hc e h he) fun _ _ hx => hx
  | .ite x a b, _, _, _, _, _, h, he => by
    cases h with
    | ite h1 h2 h3 =>
      exact OutS.bind (ann_sim md hc x h1 he) fun _ _ hx => cond_sim hx (ann_sim md hc a h2 he) (ann_sim md hc b h3 he)
  | .match_ e as, _, _, _, _, _, h, he => by
    cases h with
    | match_ h hs => exact OutS.bind (ann_sim md hc e h he) fun _ _ hx => annArms_sim md hc as hs he hx
  | .block ss, _, _, _, _, _, h, he => by
    cases h with
    | block h => exact annStmts_sim md hc ss h he
  | .struct ty fs, _, _, _, _, _, h, he => by
    cases h with
    | struct hd h => exact OutS.bind (annFields_sim md hc fs h he) fun _ _ hx => Sim.struct hd hx
  | .array es, _, _, _, _, _, h, he => by
    cases h with
    | array h ht => exact OutS.bind (annArgs_sim md hc es h he) fun _ _ hx => Sim.array (sims_all hx ht)
  | .unreachable, _, _, _, _, _, h, _ => by cases h; trivial
  | .write ps, _, _, _, _, _, h, he => by
    cases h with
    | write h =>
      refine OutS.bind (annPieces_sim md hc ps h he) fun _ _ hx => ?_
      cases hx; exact Sim.text _

theorem annArgs_sim (md : Build) {sig : Sig} {c c' : Id → Id → List Val → Out Val} (hc : CallS sig c c') {ret : T} :
    ∀ (es : Exprs) {Γ : TEnv} {ts : List T} {es' : Exprs} {env env' : Env}, AnnArgs sig ret Γ es ts es' →
      EnvS ret Γ env env' → OutS ret (Sims ts) (evalArgs md c env es) (Static.evalArgs md c' env' es')
  | .nil, _, _, _, _, _, h, _ => by cases h; exact Sims.nil
  | .cons e es, _, _, _, _, _, h, he => by
    cases h with
    | cons h hs =>
      exact OutS.bind (ann_sim md hc e h he) fun _ _ hx => OutS.bind (annArgs_sim md hc es hs he) fun _ _ hy =>
        Sims.cons hx hy

theorem annArms_sim (md : Build) {sig : Sig} {c c' : Id → Id → List Val → Out Val} (hc : CallS sig c c') {ret : T} :
    ∀ (as : Arms) {Γ : TEnv} {a t : T} {as' : Arms} {env env' : Env} {v w : Val}, AnnArms sig ret Γ a as t as' →
      EnvS ret Γ env env' → Sim a v w → OutS ret (Sim t) (evalArms md c env v as) (Static.evalArms md c' env' w as')
  | .nil, _, _, _, _, _, _, _, _, _, _, _ => trivial
  | .cons p e as, _, _, _, _, _, _, _, _, h, he, hv => by
    cases h with
    | cons hp h hs =>
      exact matchPat_sim p hv hp he (fun _ _ he => ann_sim md hc e h he) (annArms_sim md hc as hs he hv)

theorem annFields_sim (md : Build) {sig : Sig} {c c' : Id → Id → List Val → Out Val} (hc : CallS sig c c') {ret : T} :
    ∀ (fs : Fields) {Γ : TEnv} {ds : List (Id × T)} {fs' : Fields} {env env' : Env}, AnnFields sig ret Γ fs ds fs' →
      EnvS ret Γ env env' → OutS ret (SimFields ds) (evalFields md c env fs) (Static.evalFields md c' env' fs')
  | .nil, _, _, _, _, _, h, _ => by cases h; exact SimFields.nil
  | .cons x e fs, _, _, _, _, _, h, he => by
    cases h with
    | cons h hs =>
      exact OutS.bind (ann_sim md hc e h he) fun _ _ hx => OutS.bind (annFields_sim md hc fs hs he) fun _ _ hy =>
        SimFields.cons hx hy

theorem annPieces_sim (md : Build) {sig : Sig} {c c' : Id → Id → List Val → Out Val} (hc : CallS sig c c') {ret : T} :
    ∀ (ps : Pieces) {Γ : TEnv} {ps' : Pieces} {env env' : Env}, AnnPieces sig ret Γ ps ps' → EnvS ret Γ env env' →
      OutS ret (fun a b => a = b) (evalPieces md c env ps) (Static.evalPieces md c' env' ps')
  | .nil, _, _, _, _, h, _ => by cases h; rfl
  | .text s ps, _, _, _, _, h, he => by
    cases h with
    | text h =>
      refine OutS.bind (annPieces_sim md hc ps h he) fun _ _ hx => ?_
      cases hx; rfl
  | .arg s e ps, _, _, _, _, h, he => by
    cases h with
    | arg h hs hp =>
      simp only [evalPieces, Static.evalPieces, bindOut_assoc]
      refine OutS.bind (showVal_sim md hc hs (ann_sim md hc e h he)) fun _ _ hy =>
        OutS.bind (annPieces_sim md hc ps hp he) fun _ _ hz => ?_
      cases hy; cases hz; rfl

theorem annStmts_sim (md : Build) {sig : Sig} {c c' : Id → Id → List Val → Out Val} (hc : CallS sig c c') {ret : T} :
    ∀ (ss : Stmts) {Γ : TEnv} {t : T} {ss' : Stmts} {env env' : Env}, AnnStmts sig ret Γ ss t ss' →
      EnvS ret Γ env env' → OutS ret (Sim t) (evalStmts md c env ss) (Static.evalStmts md c' env' ss')
  | .done e, _, _, _, _, _, h, he => by cases h with | done h => exact ann_sim md hc e h he
  | .let_ x ty e ss, _, _, _, _, _, h, he => by
    cases h with
    | let_ h hw hs =>
      exact OutS.bind (ann_sim md hc e h he) fun _ _ hx => annStmts_sim md hc ss hs (he.val (coerce_sim hw hx))
  | .letClosure x e ss, _, _, _, _, _, h, he => by
    cases h with
    | letClosure h hs =>
      simp only [evalStmts, Static.evalStmts]
      exact annStmts_sim md hc ss hs (.cons (ann_sim md hc e h he) he)
  | .letFn _ _ _ _ _, _, _, _, _, _, h, _ => by cases h
  | .expr e ss, _, _, _, _, _, h, he => by
    cases h with
    | expr h hs => exact OutS.bind (ann_sim md hc e h he) fun _ _ _ => annStmts_sim md hc ss hs he
  | .assert e ss, _, _, _, _, _, h, he => by
    cases h with
    | assert h hs =>
      exact OutS.bind (ann_sim md hc e h he) fun _ _ hx =>
        cond_sim hx (annStmts_sim md hc ss hs he) (b := .panic) (b' := .panic) trivial
  | .assertEq _ _ _ _, _, _, _, _, _, h, _ => by cases h
  | .forRevEnum i y e x b ss, _, _, _, _, _, h, he => by
    cases h with
    | forRevEnum h hx hb hs =>
      refine OutS.bind (ann_sim md hc e h he) fun _ _ hv => ?_
      cases hv with
      | array hv =>
        exact OutS.bind (forLoop_sim (fun _ _ he => ann_sim md hc b hb he) hx (simAll_reverse hv) he)
          fun _ _ he => annStmts_sim md hc ss hs he

end

/-! ## Programs -/

theorem params_sim {ret : T} {ps : List (Id × Ty)} {as : List T} {Γ : TEnv} (h : ParamsAre ps as Γ) :
    ∀ {vs ws : List Val}, Sims as vs ws → ∃ env env', bindParams ps vs = some env ∧ Static.bindParams ps ws = some env' ∧
      EnvS ret Γ env env' := by
  induction h with
  | nil => intro vs ws h; cases h; exact ⟨_, _, rfl, rfl, .nil⟩
  | cons hw _ ih =>
    intro vs ws h
    cases h with
    | cons hv h =>
      obtain ⟨env, env', h1, h2, he⟩ := ih h
      exact ⟨_, _, by rw [bindParams, h1]; rfl, by rw [Static.bindParams, h2]; rfl, he.val (coerce_sim hw hv)⟩

theorem leave_sim {r : T} {ty : Ty} (hw : Writes ty r) {x y : Out Val} (h : OutS r (Sim r) x y) :
    OutS .never (Sim r) (leave ty x) (Static.leave y) := by
  cases x <;> cases y <;> first | exact h.elim | exact coerce_sim hw h | trivial

theorem annFn_sim (md : Build) {sig : Sig} {c c' : Id → Id → List Val → Out Val} (hc : CallS sig c c') {fn : Fn}
    {q : List T × T} {body : Expr} (h : AnnFn sig fn q body) {vs ws : List Val} (hv : Sims q.1 vs ws) :
    OutS .never (Sim q.2) (run md c fn vs) (Static.run md c' { fn with body := body } ws) := by
  obtain ⟨hw, Γ, hp, h⟩ := h
  obtain ⟨env, env', h1, h2, he⟩ := params_sim (ret := q.2) hp hv
  simp only [run, Static.run, h1, h2]
  exact leave_sim hw (ann_sim md hc fn.body h he)

theorem annotates_find {sig : Sig} {fns fns' : List Fn} (h : Annotates sig fns fns') (o f : Id) :
    (find fns o f = none ∧ find fns' o f = none) ∨ ∃ fn body, find fns o f = some fn ∧
      find fns' o f = some { fn with body := body } ∧ ∀ q ∈ sig o f, AnnFn sig fn q body := by
  induction h with
  | nil => exact .inl ⟨rfl, rfl⟩
  | @cons fn fns body fns' h _ ih =>
    simp only [find]
    by_cases he : o = fn.owner ∧ f = fn.name
    · refine .inr ⟨fn, body, by rw [if_pos he], by rw [if_pos he], ?_⟩
      rw [he.1, he.2]
      exact h
    · rw [if_neg he, if_neg he]
      exact ih

/-- Calls do the same. -/
theorem annotates_sim (md : Build) {sig : Sig} {fns fns' : List Fn} (h : Annotates sig fns fns') (d : Nat) :
    CallS sig (call fns md d) (Static.call fns' md d) := by
  induction d with
  | zero => intro o f ps r _ vs ws _; trivial
  | succ d ih =>
    intro o f ps r hm vs ws hv
    simp only [call, Static.call]
    obtain ⟨h1, h2⟩ | ⟨fn, body, h1, h2, h3⟩ := annotates_find h o f
    · rw [h1]; trivial
    · rw [h1, h2]
      exact annFn_sim md ih (h3 _ hm) hv

end Raki.Source
