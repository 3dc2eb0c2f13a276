import Verif.Source.Annotated
import Verif.Source.Explicit
import Verif.Source.Typed
import Verif.Props.Typed
import Verif.Props.Source
/-!
# C93: types decide what values decide

The evaluator of `Verif.Source.Eval` goes by values where Rust goes by types.  Written out, the types lead to the same
results.
-/

namespace Raki

open Source

set_option linter.constructorNameAsVariable false

/-- Every integer in the type is one whose type is known. -/
def knownT : T → Bool
  | .num _ s => s
  | .int _ => false
  | .option a => knownT a
  | .result a e => knownT a && knownT e
  | .array a => knownT a
  | _ => true

theorem members_known {ty : Id} {ds : List (Id × T)} (h : membersOf ty = some ds) : ∀ d ∈ ds, knownT d.2 = true := by
  unfold membersOf at h
  split at h
  · cases h
    intro d hd
    simp only [List.mem_cons, List.not_mem_nil, or_false] at hd
    obtain rfl | rfl | rfl | rfl | rfl | rfl | rfl := hd <;> rfl
  · cases h

theorem simFields_refl {fs : List (Id × Val)} {ds : List (Id × T)} (hn : fs.map Prod.fst = ds.map Prod.fst)
    (h : ∀ x v y t, ((x, v), (y, t)) ∈ fs.zip ds → Sim t v v) : SimFields ds fs fs := by
  induction fs generalizing ds with
  | nil =>
    cases ds with
    | nil => exact .nil
    | cons => cases hn
  | cons f fs ih =>
    cases ds with
    | nil => cases hn
    | cons d ds =>
      obtain ⟨x, v⟩ := f
      obtain ⟨y, t⟩ := d
      simp only [List.map_cons, List.cons.injEq] at hn
      obtain ⟨rfl, hn⟩ := hn
      exact .cons (h _ _ _ _ List.mem_cons_self) (ih hn fun a b c d hm => h a b c d (List.mem_cons_of_mem _ hm))

/-- A value of a known type is the same as itself. -/
theorem sim_refl {p : PtrWidth} {v : Val} {t : T} (h : HasT p v t) (ht : knownT t = true) : Sim t v v := by
  induction h with
  | u8 s _ => cases ht; exact .u8 _
  | u16 s _ => cases ht; exact .u16 _
  | u32 s _ => cases ht; exact .u32 _
  | usize s _ => cases ht; exact .usize _
  | i32 s _ _ => cases ht; exact .i32 _
  | litNum => cases ht
  | lit => cases ht
  | bool b => exact .bool b
  | str s => exact .str s
  | unit => exact .unit
  | text cs => exact .text cs
  | none a => exact .none a
  | some _ ih => exact .some (ih ht)
  | ok _ _ ih => exact .ok _ (ih (Bool.and_eq_true_iff.1 ht).1)
  | err _ _ ih => exact .err _ (ih (Bool.and_eq_true_iff.1 ht).2)
  | variant h1 h2 => exact .variant h1 h2
  | variantOf h1 h2 _ ih => exact .variantOf h1 h2 (ih rfl)
  | struct hd hn _ ih =>
    exact .struct hd (simFields_refl hn fun x v y t hm => ih x v y t hm (members_known hd _ (List.of_mem_zip hm).2))
  | @array a vs _ _ ih =>
    refine .array ?_
    have h (ws : List Val) (hw : ∀ v ∈ ws, Sim a v v) : SimAll a ws ws := by
      induction ws with
      | nil => exact .nil
      | cons w ws ihw => exact .cons (hw w List.mem_cons_self) (ihw fun v hv => hw v (List.mem_cons_of_mem _ hv))
    exact h vs fun v hv => ih v hv ht

mutual

/-- Nothing is the same as a value of a known type but that value. -/
theorem sim_eq {p : PtrWidth} : ∀ {t : T} {v w : Val}, Sim t v w → HasT p v t → w = v
  | _, _, _, .u8 _, _ => rfl
  | _, _, _, .u16 _, _ => rfl
  | _, _, _, .u32 _, _ => rfl
  | _, _, _, .usize _, _ => rfl
  | _, _, _, .i32 _, _ => rfl
  | _, _, _, .lit _ _ _, h => nomatch h
  | _, _, _, .bool _, _ => rfl
  | _, _, _, .str _, _ => rfl
  | _, _, _, .unit, _ => rfl
  | _, _, _, .text _, _ => rfl
  | _, _, _, .none _, _ => rfl
  | _, _, _, .some hs, h => by
    cases h with
    | some h => rw [sim_eq hs h]
  | _, _, _, .ok _ hs, h => by
    cases h with
    | ok _ h => rw [sim_eq hs h]
  | _, _, _, .err _ hs, h => by
    cases h with
    | err _ h => rw [sim_eq hs h]
  | _, _, _, .variant _ _, _ => rfl
  | _, _, _, .variantOf h1 h2 hs, h => by
    cases h with
    | variantOf h1' h2' h =>
      rw [h1] at h1'; cases h1'
      rw [h2] at h2'; cases h2'
      rw [sim_eq hs h]
  | _, _, _, .struct hd hs, h => by
    cases h with
    | struct hd' _ h =>
      rw [hd] at hd'; cases hd'
      rw [simFields_eq hs h]
  | _, _, _, .array hs, h => by
    cases h with
    | array _ h => rw [simAll_eq hs h]

theorem simFields_eq {p : PtrWidth} : ∀ {ds : List (Id × T)} {fs gs : List (Id × Val)}, SimFields ds fs gs →
    (∀ x v y t, ((x, v), (y, t)) ∈ fs.zip ds → HasT p v t) → gs = fs
  | _, _, _, .nil, _ => rfl
  | _, _, _, .cons hs hf, h => by
    rw [sim_eq hs (h _ _ _ _ List.mem_cons_self), simFields_eq hf fun a b c d hm => h a b c d (List.mem_cons_of_mem _ hm)]

theorem simAll_eq {p : PtrWidth} : ∀ {a : T} {vs ws : List Val}, SimAll a vs ws → (∀ v ∈ vs, HasT p v a) → ws = vs
  | _, _, _, .nil, _ => rfl
  | _, _, _, .cons hs hv, h => by
    rw [sim_eq hs (h _ List.mem_cons_self), simAll_eq hv fun v hm => h v (List.mem_cons_of_mem _ hm)]

end

theorem has_isa (p : PtrWidth) (isa : Isa) : HasT p (emb isa) (.named .Isa) := by
  cases isa <;> exact .variant rfl rfl

theorem sigs_known : (sigs.all fun s => s.2.2.2.all fun q => q.1.all knownT && knownT q.2) = true := by kernel_rfl

theorem sims_refl {p : PtrWidth} {vs : List Val} {ts : List T} (h : HaveT p vs ts) (ht : ts.all knownT = true) :
    Sims ts vs vs := by
  induction vs generalizing ts with
  | nil =>
    cases ts with
    | nil => exact .nil
    | cons => exact h.elim
  | cons v vs ih =>
    cases ts with
    | nil => exact h.elim
    | cons t ts =>
      rw [List.all_cons, Bool.and_eq_true] at ht
      exact .cons (sim_refl h.1 ht.1) (ih h.2 ht.2)

/-- For all ways to write the types into the crate, all builds, functions of the crate and arguments of their types:
the evaluator that goes by types does on the program with types what the evaluator that goes by values does on the
crate. -/
theorem C93_same {fns : List Fn} (h : Annotates (sigAt 6) crate fns) (md : Build) (d : Nat) (hd : 6 ≤ d) {o f : Id}
    {ps : List T} {r : T} (hf : (ps, r) ∈ sigAt 6 o f) {args : List Val} (ha : HaveT md.ptr args ps) :
    Static.call fns md d o f args = call crate md d o f args := by
  obtain ⟨k, l, hm, _, hq⟩ := sigIn_mem hf
  have hk := List.all_eq_true.1 (List.all_eq_true.1 sigs_known _ hm) _ hq
  rw [Bool.and_eq_true] at hk
  have hs := annotates_sim md h d o f ps r hf args args (sims_refl ha hk.1)
  have hv := C85_sound md d hd hf ha
  generalize call crate md d o f args = x at *
  generalize Static.call fns md d o f args = y at *
  obtain rfl | ⟨v, rfl, hv⟩ := hv
  · cases y <;> first | exact hs.elim | rfl
  · cases y <;> first | exact hs.elim | skip
    rw [sim_eq hs hv]

/-- The types can be written into the crate, and then every literal has its type and every call names its function. -/
theorem C93_exists : ∃ fns, Annotates (sigAt 6) crate fns ∧ ∀ fn ∈ fns, fn.body.explicit = true :=
  ⟨explicitCrate, annotates_crate, annotates_crate.explicit fun fn hfn => (C85_all fn hfn).1⟩

/-- For all programs, types of functions and builds: on a program into which the types have been written, the evaluator
that goes by types does what the evaluator that goes by values does on the program itself, wherever that is not stuck;
the results may differ in literals that have no type there. -/
theorem C93_programs (md : Build) {sig : Sig} {fns fns' : List Fn} (h : Annotates sig fns fns') (d : Nat) {o f : Id}
    {ps : List T} {r : T} (hf : (ps, r) ∈ sig o f) {vs ws : List Val} (hv : Sims ps vs ws) :
    match call fns md d o f vs, Static.call fns' md d o f ws with
    | .stuck, _ => True
    | .val v, .val w => Sim r v w
    | .panic, .panic => True
    | _, _ => False := by
  have := annotates_sim md h d o f ps r hf vs ws hv
  generalize call fns md d o f vs = x at *
  generalize Static.call fns' md d o f ws = y at *
  cases x <;> cases y <;> first | exact this | exact (sim_never this).elim

/-- Decoding, for all words: what the evaluator that goes by types makes of the crate is what the model does. -/
theorem C93_decode {fns : List Fn} (h : Annotates (sigAt 6) crate fns) (md : Build) (d : Nat) (hd : 6 ≤ d) (isa : Isa) :
    (∀ w : BitVec 32, Static.call fns md d .u32 .decode [emb w, emb isa] = outR (U32.decode w isa)) ∧
    ∀ w : BitVec 16, Static.call fns md d .u16 .decode [emb w, emb isa] = outR (U16.decode w isa) := by
  refine ⟨fun w => ?_, fun w => ?_⟩
  · rw [← C60_decode32 md d (by omega)]
    exact C93_same h md d hd (ps := [u32T, .named .Isa]) (List.mem_singleton.2 rfl) ⟨.u32 _ _, has_isa _ isa, trivial⟩
  · rw [← C60_decode16 md d (by omega)]
    exact C93_same h md d hd (ps := [u16T, .named .Isa]) (List.mem_singleton.2 rfl) ⟨.u16 _ _, has_isa _ isa, trivial⟩

/-- Decoded instructions are values of the declared type. -/
theorem has_decoded (md : Build) {i : Instruction} (h : Decoded i) : HasT md.ptr (emb i) (.named .Instruction) := by
  obtain ⟨w, isa, h⟩ | ⟨w, isa, h⟩ := h
  · have hv := C85_sound md 6 (Nat.le_refl 6) (o := .u32) (f := .decode) (ps := [u32T, .named .Isa])
      (List.mem_singleton.2 rfl) (args := [.u32 w, emb isa]) ⟨.u32 true w, has_isa md.ptr isa, trivial⟩
    rw [show Val.u32 w = emb w from rfl, C60_decode32 md 6 (by omega), h] at hv
    obtain hv | ⟨_, hv, ht⟩ := hv
    · cases hv
    · cases hv
      cases ht with
      | ok _ ht => exact ht
  · have hv := C85_sound md 6 (Nat.le_refl 6) (o := .u16) (f := .decode) (ps := [u16T, .named .Isa])
      (List.mem_singleton.2 rfl) (args := [.u16 w, emb isa]) ⟨.u16 true w, has_isa md.ptr isa, trivial⟩
    rw [show Val.u16 w = emb w from rfl, C60_decode16 md 6 (by omega), h] at hv
    obtain hv | ⟨_, hv, ht⟩ := hv
    · cases hv
    · cases hv
      cases ht with
      | ok _ ht => exact ht

/-- Printing, for all values of `Instruction`, among them all that decoding returns: what the evaluator that goes by
types prints is what the model prints. -/
theorem C93_display {fns : List Fn} (h : Annotates (sigAt 6) crate fns) (md : Build) (d : Nat) (hd : 6 ≤ d)
    (i : Instruction) (hi : HasT md.ptr (emb i) (.named .Instruction) ∨ Decoded i) :
    text (Static.call fns md d .Instruction .fmt [emb i]) = outV i.fmt := by
  have hi : HasT md.ptr (emb i) (.named .Instruction) := hi.elim id (has_decoded md)
  rw [← C60_display md d (by omega)]
  rw [C93_same h md d hd (ps := [.named .Instruction]) (List.mem_singleton.2 rfl) (args := [emb i])
    ⟨hi, trivial⟩]

/-- The types that have been written out are needed: without them the evaluator that goes by types is stuck.  `Ann`
rejects a literal that does not fit its type, operands of different types, and a method of another type.  A value of an
enum is not shown but by a call that has been written out. -/
theorem C93_rejects (sig : Sig) (ret : T) (Γ : TEnv) (md : Build) (c : Id → Id → List Val → Out Val) (env : Env) :
    (∀ s ty v, Static.showVal s (.variant ty v) = .stuck) ∧
    Static.eval md c env (.lit 1) = .stuck ∧ Static.eval md c env (.method (.litT 1 .u32) .slice .nil) = .stuck ∧
    (∀ e, ¬ Ann sig ret Γ (.lit 256) (.num .u8 true) e) ∧
    (∀ t e, ¬ Ann sig ret [(.inst, .num .u16 true), (.mask, .num .u32 true)] (.bin .and (.var .inst) (.var .mask)) t e) ∧
    ∀ e es, ¬ Ann sig ret [(.inst, .num .u16 true)] (.method (.var .inst) .slice .nil) u16T (.call .u32 e es) := by
  refine ⟨fun s _ _ => by cases s <;> rfl, rfl, rfl, fun e h => ?_, fun t e h => ?_, fun e es h => ?_⟩
  · cases h with
    | lit k hn => exact absurd hn (by decide)
  · cases h with
    | arith h1 h2 _ =>
      cases h1 with
      | var h1 => cases h2 with
        | var h2 => cases h1; cases h2
    | shift _ _ _ ht => cases ht
  · cases h with
    | method h ho _ _ =>
      cases h with
      | var h => cases h; cases ho

-- the call of the opcode's `fmt` in the text printed for an instruction
example (fns : List Fn) (h : Annotates (sigAt 6) crate fns) (i : Instruction)
    (hi : U32.decode 0x00a28293 Isa.Rv32 = .ok i) :
    text (Static.call fns ⟨.checked, .w64⟩ 6 .Instruction .fmt [emb i]) = .val (.str "addi t0, t0, 10") := by
  rw [C93_display h _ _ (Nat.le_refl 6) i (.inr (.inl ⟨_, _, hi⟩))]
  cases hi
  rfl

example (fns : List Fn) (h : Annotates (sigAt 6) crate fns) :
    Static.call fns ⟨.checked, .w64⟩ 6 .u32 .decode [emb (0x00a28293 : BitVec 32), emb Isa.Rv32] =
      outR (U32.decode 0x00a28293 Isa.Rv32) := (C93_decode h _ _ (Nat.le_refl 6) _).1 _

example : Static.call crate ⟨.checked, .w64⟩ 6 .u32 .slice [.u32 0xff, .u32 3, .u32 0] = .stuck := by kernel_rfl

example : Static.call explicitCrate ⟨.checked, .w64⟩ 6 .u32 .slice [.u32 0xff, .u32 3, .u32 0] = .val (.u32 0xf) := by
  kernel_rfl

end Raki
