import Verif.Source.Typed
import Verif.Source.Heads
import Verif.Source.Relate
/-!
# The source text is well typed

`infer` finds the type of an expression without running it, and `HasT p v t` says that the value `v` is of the type `t`
and that every number in it is in the range of its type, on a target whose pointers have the width `p`.  The evaluator
decides by looking at values what Rust decides by looking at types; here the two are shown to agree.
-/

namespace Raki

open Source

theorem haveT_loose {p : PtrWidth} {vs : List Val} {ts : List T} (h : HaveT p vs ts) : HaveT p vs (ts.map T.loose) := by
  have loose (t : T) : ∀ {v : Val}, HasT p v t → HasT p v t.loose := by
    induction t with
    | num k s => exact fun h => num_loose h
    | option a ih =>
      intro v h
      cases h with
      | none => exact .none _
      | some h => exact .some (ih h)
    | result a e ih =>
      intro v h
      cases h with
      | ok _ h => exact .ok _ (ih h)
      | err _ h => exact .err _ h
    | array a ih =>
      intro v h
      cases h with
      | array hl h => exact .array hl fun w hw => ih (h w hw)
    | _ => exact fun h => h
  induction ts generalizing vs with
  | nil => exact h
  | cons t ts ih =>
    cases vs with
    | nil => exact h
    | cons v vs => exact ⟨loose t h.1, ih h.2⟩

/-- Does a type agree with what is left of it in the syntax? -/
def agrees : Ty → T → Bool
  | .other, _ => true
  | .u8, .num .u8 true => true
  | .u16, .num .u16 true => true
  | .u32, .num .u32 true => true
  | .usize, .num .usize true => true
  | .i32, .num .i32 true => true
  | .option t, .option a => agrees t a
  | .result t, .result a (.named .DecodingError) => agrees t a
  | .array t, .array a => agrees t a
  | _, _ => false

/-- Do the types of parameters agree? -/
def agreeAll : List (Id × Ty) → List T → Bool
  | [], [] => true
  | (_, t) :: ps, a :: as => agrees t a && agreeAll ps as
  | _, _ => false

/-! ## C85: the crate is well typed -/

/-- C85.  Called with arguments of its parameter types, a function of the crate returns a value of its result type or
panics: nothing it does is without meaning.  This holds in every build, on every target, and however deep calls may
nest. -/
theorem C85_sound (md : Build) (d : Nat) (h : 6 ≤ d) {o f : Id} {ps : List T} {r : T} (hf : (ps, r) ∈ sigAt 6 o f)
    {args : List Val} (ha : HaveT md.ptr args ps) :
    call crate md d o f args = .panic ∨ ∃ v, call crate md d o f args = .val v ∧ HasT md.ptr v r := by
  have := call_typed md d o f ps r (sigIn_mono h hf) args (haveT_loose ha)
  generalize call crate md d o f args = x at this
  cases x with
  | val v => exact .inr ⟨v, rfl, this⟩
  | ret v => obtain ⟨_, _, h⟩ := this; cases h
  | panic => exact .inl rfl
  | stuck => exact this.elim

/-- C85.  Every function of the crate has a type, and it agrees with what the syntax says of it. -/
theorem C85_all : ∀ fn ∈ crate, sigAt 6 fn.owner fn.name ≠ [] ∧
    ∀ q ∈ sigAt 6 fn.owner fn.name, agreeAll fn.params q.1 = true ∧ agrees fn.ret q.2 = true := by
  have h : (crate.all fun fn => !(sigAt 6 fn.owner fn.name).isEmpty &&
      (sigAt 6 fn.owner fn.name).all fun q => agreeAll fn.params q.1 && agrees fn.ret q.2) = true := by kernel_rfl
  intro fn hfn
  have := List.all_eq_true.1 h fn hfn
  rw [Bool.and_eq_true] at this
  refine ⟨fun e => ?_, fun q hq => ?_⟩
  · rw [e] at this; exact absurd this.1 (by simp)
  · have := List.all_eq_true.1 this.2 q hq
    rwa [Bool.and_eq_true] at this

/-- C85.  These types, and those of the fields of `Instruction`, are the ones the text of the files declares. -/
theorem C85_declared : ∃ d, headsOf files = some d ∧
    d.sigs = some (crate.map fun fn => (fn.owner, fn.name, sigAt 6 fn.owner fn.name)) ∧
    d.records = some [(.Instruction, (membersOf .Instruction).getD [])] := by
  have h := heads_files
  cases e : headsOf files with
  | none => rw [e] at h; cases h
  | some d =>
    rw [e] at h
    have h := Option.some.inj h
    exact ⟨d, rfl, congrArg (·.1) h, congrArg (·.2.1) h⟩

/-- C85.  A type that implements a trait of the crate has every function the trait asks for, with the type the trait
declares for it. -/
theorem C85_traits : ∃ d, headsOf files = some d ∧ ∀ i ∈ d.impls, ∀ m ∈ d.traits, m.1 = i.1 →
    ∃ t, m.2.1.types d i.2 = some t ∧ d.provided i.2 m.2.1.name = some t := by
  have h := heads_files
  cases e : headsOf files with
  | none => rw [e] at h; cases h
  | some d =>
    rw [e] at h
    have h : (d.required.map fun r => (r.2.types d r.1, d.provided r.1 r.2.name)) =
        asked.map fun p => (some (sigAt 6 p.1 p.2), some (sigAt 6 p.1 p.2)) := congrArg (·.2.2) (Option.some.inj h)
    refine ⟨d, rfl, fun i hi m hm hmi => ?_⟩
    have hr : (i.2, m.2.1) ∈ d.required := by
      refine List.mem_flatMap.2 ⟨i, hi, List.mem_filterMap.2 ⟨m, hm, ?_⟩⟩
      have : Nat.beq m.1 i.1 = true := by rw [hmi]; exact Nat.beq_refl _
      simp [this]
    have := h ▸ List.mem_map_of_mem (f := fun r : Nat × Header => (r.2.types d r.1, d.provided r.1 r.2.name)) hr
    obtain ⟨p, _, hp⟩ := List.mem_map.1 this
    obtain ⟨h1, h2⟩ := Prod.mk.inj hp
    exact ⟨_, h1.symm, h2.symm⟩

/-- There are thirty such functions. -/
example : ∃ d, headsOf files = some d ∧ d.required.length = 30 := by
  have h := heads_files
  cases e : headsOf files with
  | none => rw [e] at h; cases h
  | some d =>
    rw [e] at h
    have h := congrArg (·.2.2.length) (Option.some.inj h)
    rw [List.length_map, List.length_map] at h
    exact ⟨d, rfl, h.trans (by decide)⟩

/-- C85.  The same for every expression, not only those of the crate: where the checker finds a type, evaluation yields
a value of that type, returns a value that may be returned, or panics. -/
theorem C85_expression (md : Build) {sig : Sig} {c : Id → Id → List Val → Out Val} (hc : CallT md.ptr sig c)
    {ret : T → Bool} {Γ : TEnv} {env : Env} (he : EnvT md.ptr ret Γ env) (e : Expr) {t : T}
    (h : infer sig ret Γ e = some t) :
    match eval md c env e with
    | .val v => HasT md.ptr v t
    | .ret v => ∃ s, HasT md.ptr v s ∧ ret s = true
    | .panic => True
    | .stuck => False := by
  have := infer_sound md hc he e h
  generalize eval md c env e = x at this ⊢
  cases x <;> exact this

/-- C85.  A `match` without the arm for `Rv64`, a literal too large for its type, operands of two types, a result of
the wrong type and an unknown field are all rejected. -/
theorem C85_rejects :
    infer (fun _ _ => []) (fun _ => true) [(.isa, .named .Isa)]
      (.match_ (.var .isa) (.cons (.ctor .Isa .Rv32) (.bool true) .nil)) = none ∧
    infer (fun _ _ => []) (fun _ => true) [] (.litT 256 .u8) = none ∧
    infer (fun _ _ => []) (fun _ => true) [(.inst, .num .u16 true), (.mask, .num .u32 true)]
      (.bin .and (.var .inst) (.var .mask)) = none ∧
    fnT (fun _ _ => []) ⟨.decode, .only_rv64, [(.isa, .other)], .u32, .var .isa⟩ [.named .Isa] (.num .u32 true) =
      false ∧
    infer (fun _ _ => []) (fun _ => true) [(.inst, .named .Instruction)] (.field (.var .inst) .mask) = none := by
  refine ⟨?_, ?_, ?_, ?_, ?_⟩ <;> kernel_rfl

/-- C85.  With the arm, a smaller literal, operands of one type and so on they are accepted. -/
theorem C85_accepts :
    infer (fun _ _ => []) (fun _ => true) [(.isa, .named .Isa)]
      (.match_ (.var .isa) (.cons (.ctor .Isa .Rv32) (.bool true) (.cons (.ctor .Isa .Rv64) (.bool false) .nil))) =
      some .bool ∧
    infer (fun _ _ => []) (fun _ => true) [] (.litT 255 .u8) = some (.num .u8 true) ∧
    infer (fun _ _ => []) (fun _ => true) [(.inst, .num .u16 true), (.mask, .num .u16 true)]
      (.bin .and (.var .inst) (.var .mask)) = some (.num .u16 true) ∧
    fnT (fun _ _ => []) ⟨.decode, .only_rv64, [(.isa, .other)], .other, .var .isa⟩ [.named .Isa] (.named .Isa) = true ∧
    infer (fun _ _ => []) (fun _ => true) [(.inst, .named .Instruction)] (.field (.var .inst) .imm) =
      some (.option (.num .i32 true)) := by
  refine ⟨?_, ?_, ?_, ?_, ?_⟩ <;> kernel_rfl

/-- The hypotheses of `C85_sound` are met by the decoder on any `u32`. -/
example (md : Build) (w : BitVec 32) : call crate md 6 .u32 .decode [.u32 w, .variant .Isa .Rv64] = .panic ∨
    ∃ v, call crate md 6 .u32 .decode [.u32 w, .variant .Isa .Rv64] = .val v ∧
      HasT md.ptr v (res (.named .Instruction)) :=
  have h : sigAt 6 .u32 .decode = [([u32T, .named .Isa], res (.named .Instruction))] := by kernel_rfl
  C85_sound md 6 (Nat.le_refl _) (ps := [u32T, .named .Isa]) (h ▸ List.mem_singleton.2 rfl)
    ⟨.u32 _ w, .variant (vs := [(.Rv32, none), (.Rv64, none)]) rfl rfl, trivial⟩

/-- They are met by a function that only the crate itself can call, on any array that fits in memory. -/
example (md : Build) (w : BitVec 16) (ms : List (BitVec 32)) (hm : ms.length ≤ 2 ^ md.ptr.bits) :
    call crate md 6 .u16 .set [.u16 w, .array (ms.map .u32)] = .panic ∨
    ∃ v, call crate md 6 .u16 .set [.u16 w, .array (ms.map .u32)] = .val v ∧ HasT md.ptr v u32T := by
  have h : sigAt 6 .u16 .set = [([u16T, .array u32T], u32T)] := by kernel_rfl
  refine C85_sound md 6 (Nat.le_refl _) (ps := [u16T, .array u32T]) (h ▸ List.mem_singleton.2 rfl)
    ⟨.u16 _ w, .array (by simpa using hm) ?_, trivial⟩
  intro v hv
  obtain ⟨m, _, rfl⟩ := List.mem_map.1 hv
  exact .u32 _ m

end Raki
