import Verif.Props.Elaborated
import Verif.Props.Public
/-!
# C95: programs that use the crate

A program is a list of functions with types; each may call the public functions of the crate and the functions before
it, or all functions of the program.  Such a program cannot tell apart two libraries that do the same for arguments of the declared types.
-/

namespace Raki

open Source

/-- What a library does when one of its functions is called. -/
abbrev Lib := Id → Id → List Val → Out Val

/-- The types of the functions that another crate can call. -/
def publicSig : Sig := fun o f => if (o, f) ∈ publicFns then sigAt 6 o f else []

/-- The second library does what the first does with arguments of the declared types, and that is to panic or to return
a value of the declared type. -/
def Alike (p : PtrWidth) (sig : Sig) (c c' : Lib) : Prop :=
  ∀ o f ps r, (ps, r) ∈ sig o f → ∀ args, HaveT p args ps →
    c' o f args = c o f args ∧ (c o f args = .panic ∨ ∃ v, c o f args = .val v ∧ HasT p v r)

/-- A function of a program that uses the crate: as it is written, its types, and the body with the types written into
it. -/
structure Item where
  fn : Fn
  params : List T
  ret : T
  body : Expr

/-- The function can be called too, from now on. -/
def Item.declare (i : Item) (sig : Sig) : Sig :=
  fun o f => if o = i.fn.owner ∧ f = i.fn.name then [(i.params, i.ret)] else sig o f

/-- The library together with the function; the function goes by types. -/
def Item.link (i : Item) (md : Build) (c : Lib) : Lib :=
  fun o f args =>
    if o = i.fn.owner ∧ f = i.fn.name then Static.run md c { i.fn with body := i.body } args else c o f args

/-- The function passes the checker, and its types are written into its body. -/
structure Item.Typed (sig : Sig) (i : Item) : Prop where
  known : (i.params.all knownT && knownT i.ret) = true
  typed : fnT sig i.fn i.params i.ret = true
  written : AnnFn sig i.fn (i.params, i.ret) i.body

/-- All functions of a program; the first may call those of the library only. -/
def declareAll (sig : Sig) : List Item → Sig
  | [] => sig
  | i :: is => declareAll (i.declare sig) is

/-- The library together with all functions of a program. -/
def linkAll (md : Build) (c : Lib) : List Item → Lib
  | [] => c
  | i :: is => linkAll md (i.link md c) is

/-- Every function passes the checker. -/
inductive AllTyped : Sig → List Item → Prop
  | nil {sig} : AllTyped sig []
  | cons {sig i is} : i.Typed sig → AllTyped (i.declare sig) is → AllTyped sig (i :: is)

/-- A function has one type at most, and it has no unknown integers. -/
structure Single (sig : Sig) : Prop where
  one : ∀ o f q q', q ∈ sig o f → q' ∈ sig o f → q = q'
  known : ∀ o f q, q ∈ sig o f → q.1.all knownT = true ∧ knownT q.2 = true

/-! ## Literals become values of the declared types -/

mutual

theorem sim_unique : ∀ {t : T} {v w w' : Val}, Sim t v w → Sim t v w' → w' = w
  | _, _, _, _, .u8 _, h => by cases h; rfl
  | _, _, _, _, .u16 _, h => by cases h; rfl
  | _, _, _, _, .u32 _, h => by cases h; rfl
  | _, _, _, _, .usize _, h => by cases h; rfl
  | _, _, _, _, .i32 _, h => by cases h; rfl
  | _, _, _, _, .lit _ _ e, h => by
    cases h with
    | lit _ _ e' => rw [e, e']
  | _, _, _, _, .bool _, h => by cases h; rfl
  | _, _, _, _, .str _, h => by cases h; rfl
  | _, _, _, _, .unit, h => by cases h; rfl
  | _, _, _, _, .text _, h => by cases h; rfl
  | _, _, _, _, .none _, h => by cases h; rfl
  | _, _, _, _, .some hs, h => by
    cases h with
    | some h => rw [sim_unique hs h]
  | _, _, _, _, .ok _ hs, h => by
    cases h with
    | ok _ h => rw [sim_unique hs h]
  | _, _, _, _, .err _ hs, h => by
    cases h with
    | err _ h => rw [sim_unique hs h]
  | _, _, _, _, .variant _ _, h => by cases h; rfl
  | _, _, _, _, .variantOf h1 h2 hs, h => by
    cases h with
    | variantOf h1' h2' h =>
      rw [h1] at h1'; cases h1'
      rw [h2] at h2'; cases h2'
      rw [sim_unique hs h]
  | _, _, _, _, .struct hd hs, h => by
    cases h with
    | struct hd' h =>
      rw [hd] at hd'; cases hd'
      rw [simFields_unique hs h]
  | _, _, _, _, .array hs, h => by
    cases h with
    | array h => rw [simAll_unique hs h]

theorem simFields_unique : ∀ {ds : List (Id × T)} {fs gs gs' : List (Id × Val)}, SimFields ds fs gs →
    SimFields ds fs gs' → gs' = gs
  | _, _, _, _, .nil, h => by cases h; rfl
  | _, _, _, _, .cons hs hf, h => by
    cases h with
    | cons h h' => rw [sim_unique hs h, simFields_unique hf h']

theorem simAll_unique : ∀ {a : T} {vs ws ws' : List Val}, SimAll a vs ws → SimAll a vs ws' → ws' = ws
  | _, _, _, _, .nil, h => by cases h; rfl
  | _, _, _, _, .cons hs hv, h => by
    cases h with
    | cons h h' => rw [sim_unique hs h, simAll_unique hv h']

end

theorem sims_unique {ts : List T} {vs ws ws' : List Val} (h : Sims ts vs ws) (h' : Sims ts vs ws') : ws' = ws := by
  induction h generalizing ws' with
  | nil => cases h'; rfl
  | cons hs _ ih =>
    cases h' with
    | cons hs' h' => rw [sim_unique hs hs', ih h']

theorem settle_num {p : PtrWidth} {k : Kind} {v : Val} (h : HasT p v (.num k false)) :
    ∃ w, Sim (.num k true) v w ∧ HasT p w (.num k true) := by
  cases h with
  | u8 _ h => exact ⟨_, .u8 _, .u8 _ h⟩
  | u16 => exact ⟨_, .u16 _, .u16 _ _⟩
  | u32 => exact ⟨_, .u32 _, .u32 _ _⟩
  | usize _ h => exact ⟨_, .usize _, .usize _ h⟩
  | i32 _ h1 h2 => exact ⟨_, .i32 _, .i32 _ h1 h2⟩
  | litNum _ h =>
    exact ⟨_, .lit k h rfl, coerce_sound (b := .num k true) _ (HasT.litNum (p := p) k h) (by cases k <;> rfl)⟩

theorem settle {p : PtrWidth} (t : T) : ∀ {v : Val}, HasT p v t.loose → knownT t = true →
    ∃ w, Sim t v w ∧ HasT p w t := by
  induction t with
  | num k s =>
    intro v h ht
    cases ht
    exact settle_num h
  | option a ih =>
    intro v h ht
    cases h with
    | none => exact ⟨_, .none _, .none _⟩
    | some h =>
      obtain ⟨w, h1, h2⟩ := ih h ht
      exact ⟨_, .some h1, .some h2⟩
  | result a e ih _ =>
    intro v h ht
    rw [knownT, Bool.and_eq_true] at ht
    cases h with
    | ok _ h =>
      obtain ⟨w, h1, h2⟩ := ih h ht.1
      exact ⟨_, .ok _ h1, .ok _ h2⟩
    | err _ h => exact ⟨_, .err _ (sim_refl h ht.2), .err _ h⟩
  | array a ih =>
    intro v h ht
    cases h with
    | @array _ vs hl h =>
      have key (vs : List Val) (h : ∀ v ∈ vs, HasT p v a.loose) :
          ∃ ws, SimAll a vs ws ∧ ws.length = vs.length ∧ ∀ w ∈ ws, HasT p w a := by
        induction vs with
        | nil => exact ⟨[], .nil, rfl, nofun⟩
        | cons v vs ihv =>
          obtain ⟨w, h1, h2⟩ := ih (h v List.mem_cons_self) ht
          obtain ⟨ws, h3, h4, h5⟩ := ihv fun v hv => h v (List.mem_cons_of_mem _ hv)
          exact ⟨w :: ws, .cons h1 h3, congrArg (· + 1) h4, fun x hx => (List.mem_cons.1 hx).elim (· ▸ h2) (h5 x)⟩
      obtain ⟨ws, h1, h2, h3⟩ := key vs h
      exact ⟨_, .array h1, .array (h2 ▸ hl) h3⟩
  | _ => exact fun h ht => ⟨_, sim_refl h ht, h⟩

theorem settles {p : PtrWidth} {ts : List T} (ht : ts.all knownT = true) : ∀ {vs : List Val},
    HaveT p vs (ts.map T.loose) → ∃ ws, Sims ts vs ws ∧ HaveT p ws ts := by
  induction ts with
  | nil =>
    intro vs h
    cases vs with
    | nil => exact ⟨[], .nil, trivial⟩
    | cons => exact h.elim
  | cons t ts ih =>
    rw [List.all_cons, Bool.and_eq_true] at ht
    intro vs h
    cases vs with
    | nil => exact h.elim
    | cons v vs =>
      obtain ⟨w, h1, h2⟩ := settle t h.1 ht.1
      obtain ⟨ws, h3, h4⟩ := ih ht.2 h.2
      exact ⟨w :: ws, .cons h1 h3, h2, h4⟩

/-! ## One function -/

open Classical in
/-- The library, but stuck unless the arguments are of the declared types. -/
noncomputable def guarded (p : PtrWidth) (sig : Sig) (c : Lib) : Lib := fun o f vs =>
  if h : ∃ ws, ∃ q ∈ sig o f, Sims q.1 vs ws ∧ HaveT p ws q.1 then c o f h.choose else .stuck

theorem guarded_eq {p : PtrWidth} {sig : Sig} (hs : Single sig) (c : Lib) {o f : Id} {q : List T × T} (hq : q ∈ sig o f)
    {vs ws : List Val} (h : Sims q.1 vs ws) (hw : HaveT p ws q.1) : guarded p sig c o f vs = c o f ws := by
  have he : ∃ ws, ∃ q ∈ sig o f, Sims q.1 vs ws ∧ HaveT p ws q.1 := ⟨ws, q, hq, h, hw⟩
  rw [guarded, dif_pos he]
  obtain ⟨q', hq', h', -⟩ := he.choose_spec
  cases hs.one _ _ _ _ hq hq'
  rw [sims_unique h h']

theorem guarded_typed {p : PtrWidth} {sig : Sig} (hs : Single sig) {c c' : Lib} (h : Alike p sig c c') :
    CallT p sig (guarded p sig c) := by
  intro o f ps r hq vs hv
  obtain ⟨ws, h1, h2⟩ := settles (hs.known _ _ _ hq).1 hv
  rw [guarded_eq hs c hq h1 h2]
  obtain e | ⟨v, e, ht⟩ := (h o f ps r hq ws h2).2
  · rw [e]; trivial
  · rw [e]; exact ht

theorem guarded_sim {p : PtrWidth} {sig : Sig} (hs : Single sig) {c c' : Lib} (h : Alike p sig c c') :
    CallS sig (guarded p sig c) c' := by
  intro o f ps r hq vs ws hv
  by_cases he : ∃ ws, ∃ q ∈ sig o f, Sims q.1 vs ws ∧ HaveT p ws q.1
  · obtain ⟨ws', q', hq', h1, h2⟩ := he
    cases hs.one _ _ _ _ hq hq'
    cases sims_unique hv h1
    rw [guarded_eq hs c hq hv h2]
    obtain ⟨e', e | ⟨v, e, ht⟩⟩ := h o f ps r hq _ h2
    · rw [e', e]; trivial
    · rw [e', e]; exact sim_refl ht (hs.known _ _ _ hq).2
  · rw [guarded, dif_neg he]; trivial

theorem Alike.refl {p : PtrWidth} {sig : Sig} {c c' : Lib} (h : Alike p sig c c') : Alike p sig c c :=
  fun o f ps r hq args ha => ⟨rfl, (h o f ps r hq args ha).2⟩

theorem item_alike (md : Build) {sig : Sig} (hs : Single sig) {i : Item} (hi : i.Typed sig) {c c' : Lib}
    (h : Alike md.ptr sig c c') {args : List Val} (ha : HaveT md.ptr args i.params) :
    Static.run md c' { i.fn with body := i.body } args = Static.run md c { i.fn with body := i.body } args ∧
    (Static.run md c { i.fn with body := i.body } args = .panic ∨
      ∃ v, Static.run md c { i.fn with body := i.body } args = .val v ∧ HasT md.ptr v i.ret) := by
  have hk := hi.known
  rw [Bool.and_eq_true] at hk
  have ht := fnT_sound md (guarded_typed hs h) hi.typed (haveT_loose ha)
  have h1 := annFn_sim md (guarded_sim hs h.refl) hi.written (sims_refl ha hk.1)
  have h2 := annFn_sim md (guarded_sim hs h) hi.written (sims_refl ha hk.1)
  generalize run md (guarded md.ptr sig c) i.fn args = x at *
  generalize Static.run md c { i.fn with body := i.body } args = y at *
  generalize Static.run md c' { i.fn with body := i.body } args = z at *
  cases x with
  | val v =>
    cases y <;> first | exact h1.elim | skip
    cases z <;> first | exact h2.elim | skip
    cases sim_eq h1 ht
    cases sim_eq h2 ht
    exact ⟨rfl, .inr ⟨_, rfl, ht⟩⟩
  | ret v => obtain ⟨_, _, h⟩ := ht; cases h
  | panic =>
    cases y <;> first | exact h1.elim | skip
    cases z <;> first | exact h2.elim | skip
    exact ⟨rfl, .inl rfl⟩
  | stuck => exact ht.elim

theorem declare_single {sig : Sig} (hs : Single sig) {i : Item} (hi : i.Typed sig) : Single (i.declare sig) := by
  have hk := hi.known
  rw [Bool.and_eq_true] at hk
  refine ⟨fun o f q q' h h' => ?_, fun o f q h => ?_⟩
  · unfold Item.declare at h h'
    split at h
    · rw [if_pos ‹_›] at h'
      rw [List.mem_singleton.1 h, List.mem_singleton.1 h']
    · rw [if_neg ‹_›] at h'
      exact hs.one _ _ _ _ h h'
  · unfold Item.declare at h
    split at h
    · rw [List.mem_singleton.1 h]; exact hk
    · exact hs.known _ _ _ h

theorem link_alike (md : Build) {sig : Sig} (hs : Single sig) {i : Item} (hi : i.Typed sig) {c c' : Lib}
    (h : Alike md.ptr sig c c') : Alike md.ptr (i.declare sig) (i.link md c) (i.link md c') := by
  intro o f ps r hq args ha
  unfold Item.declare at hq
  unfold Item.link
  by_cases e : o = i.fn.owner ∧ f = i.fn.name
  · simp only [if_pos e] at hq ⊢
    cases List.mem_singleton.1 hq
    exact item_alike md hs hi h ha
  · simp only [if_neg e] at hq ⊢
    exact h o f ps r hq args ha

/-- **C95.** For all programs whose functions pass the checker, all builds and all pairs of libraries that do the same
for arguments of the declared types: every function of the program does the same with either library, and it panics or
returns a value of its type. -/
theorem C95_programs (md : Build) {sig : Sig} (hs : Single sig) {is : List Item} (hi : AllTyped sig is) {c c' : Lib}
    (h : Alike md.ptr sig c c') : Alike md.ptr (declareAll sig is) (linkAll md c is) (linkAll md c' is) := by
  induction hi generalizing c c' with
  | nil => exact h
  | cons hi _ ih => exact ih (declare_single hs hi) (link_alike md hs hi h)

/-! ## Programs with recursion -/

/-- The function of that name. -/
def lookup (o f : Id) : List Item → Option Item
  | [] => none
  | i :: is => if o = i.fn.owner ∧ f = i.fn.name then some i else lookup o f is

/-- All functions of the program can be called from everywhere. -/
def declareRec (sig : Sig) (is : List Item) : Sig := fun o f => match lookup o f is with
  | some i => [(i.params, i.ret)]
  | none => sig o f

/-- The library together with the program, whose calls may be nested that deep; then the stack overflows, here a
panic. -/
def linkRec (md : Build) (c : Lib) (is : List Item) : Nat → Lib
  | 0, o, f, args => (match lookup o f is with
    | some _ => .panic
    | none => c o f args)
  | d + 1, o, f, args => (match lookup o f is with
    | some i => Static.run md (linkRec md c is d) { i.fn with body := i.body } args
    | none => c o f args)

theorem lookup_mem {o f : Id} {is : List Item} {i : Item} (h : lookup o f is = some i) : i ∈ is := by
  induction is with
  | nil => cases h
  | cons j is ih =>
    rw [lookup] at h
    by_cases e : o = j.fn.owner ∧ f = j.fn.name
    · rw [if_pos e] at h
      cases h
      exact List.mem_cons_self
    · rw [if_neg e] at h
      exact List.mem_cons_of_mem _ (ih h)

theorem declareRec_single {sig : Sig} (hs : Single sig) {is : List Item}
    (hi : ∀ i ∈ is, i.Typed (declareRec sig is)) : Single (declareRec sig is) := by
  refine ⟨fun o f q q' h h' => ?_, fun o f q h => ?_⟩
  · unfold declareRec at h h'
    split at h
    · simp only [‹lookup o f is = _›] at h'
      rw [List.mem_singleton.1 h, List.mem_singleton.1 h']
    · simp only [‹lookup o f is = _›] at h'
      exact hs.one _ _ _ _ h h'
  · unfold declareRec at h
    split at h
    · have hk := (hi _ (lookup_mem ‹_›)).known
      rw [Bool.and_eq_true] at hk
      rw [List.mem_singleton.1 h]; exact hk
    · exact hs.known _ _ _ h

/-- **C95.** The same for programs whose functions may call each other, for every size of the stack: the program panics,
by itself or because the stack overflows, or returns a value of its type, and it does the same with either library. -/
theorem C95_recursive (md : Build) {sig : Sig} (hs : Single sig) {is : List Item}
    (hi : ∀ i ∈ is, i.Typed (declareRec sig is)) {c c' : Lib} (h : Alike md.ptr sig c c') (d : Nat) :
    Alike md.ptr (declareRec sig is) (linkRec md c is d) (linkRec md c' is d) := by
  have hs' := declareRec_single hs hi
  induction d with
  | zero =>
    intro o f ps r hq args ha
    unfold declareRec at hq
    unfold linkRec
    split at hq
    · exact ⟨rfl, .inl rfl⟩
    · exact h o f ps r hq args ha
  | succ d ih =>
    intro o f ps r hq args ha
    unfold declareRec at hq
    unfold linkRec
    split at hq
    · cases List.mem_singleton.1 hq
      exact item_alike md hs' (hi _ (lookup_mem ‹_›)) ih ha
    · exact h o f ps r hq args ha

/-- The public functions of the crate have one type each. -/
theorem C95_single : Single publicSig := by
  have h : (publicFns.all fun x => match sigAt 6 x.1 x.2 with
      | [q] => q.1.all knownT && knownT q.2
      | _ => false) = true := by kernel_rfl
  have key (o f : Id) (q : List T × T) (hq : q ∈ publicSig o f) :
      publicSig o f = [q] ∧ q.1.all knownT = true ∧ knownT q.2 = true := by
    unfold publicSig at hq ⊢
    split at hq
    · rename_i hf
      rw [if_pos hf]
      have := List.all_eq_true.1 h _ hf
      split at this
      · rename_i e
        simp only at e
        rw [e] at hq ⊢
        cases List.mem_singleton.1 hq
        exact ⟨rfl, Bool.and_eq_true_iff.1 this⟩
      · cases this
    · cases hq
  refine ⟨fun o f q q' h h' => ?_, fun o f q h => (key o f q h).2⟩
  rw [(key o f q h).1] at h'
  exact (List.mem_singleton.1 h').symm

theorem public_mem {o f : Id} {q : List T × T} (h : q ∈ publicSig o f) : (o, f) ∈ publicFns ∧ q ∈ sigAt 6 o f := by
  unfold publicSig at h
  split at h
  · exact ⟨‹_›, h⟩
  · cases h

/-- **C95.** All builds of the crate are alike to programs that use it, and so is the crate with its types written
into it. -/
theorem C95_crate (md md' : Build) (d d' : Nat) (h : 6 ≤ d) (h' : 6 ≤ d') :
    Alike md.ptr publicSig (call crate md d) (call crate md' d') ∧
    ∀ fns, Annotates (sigAt 6) crate fns → md'.ptr = md.ptr →
      Alike md.ptr publicSig (call crate md d) (Static.call fns md' d') := by
  have key : Alike md.ptr publicSig (call crate md d) (call crate md' d') := fun o f ps r hq args ha =>
    ⟨(C89_builds md md' d d' h h' (public_mem hq).1 (public_mem hq).2 ha).symm, C85_sound md d h (public_mem hq).2 ha⟩
  refine ⟨key, fun fns hf hp o f ps r hq args ha => ⟨?_, (key o f ps r hq args ha).2⟩⟩
  rw [C93_same hf md' d' h' (public_mem hq).2 (hp ▸ ha)]
  exact (key o f ps r hq args ha).1

/-- **C95.** For all programs that use the crate, functions of them and arguments of their types: the result does not
depend on the build of the crate, and the program panics or returns a value of its type. -/
theorem C95_builds (md mc mc' : Build) (d d' : Nat) (h : 6 ≤ d) (h' : 6 ≤ d') (hp : mc.ptr = md.ptr) {is : List Item}
    (hi : AllTyped publicSig is) {o f : Id} {ps : List T} {r : T} (hf : (ps, r) ∈ declareAll publicSig is o f)
    {args : List Val} (ha : HaveT md.ptr args ps) :
    linkAll md (call crate mc d) is o f args = linkAll md (call crate mc' d') is o f args ∧
    (linkAll md (call crate mc d) is o f args = .panic ∨
      ∃ v, linkAll md (call crate mc d) is o f args = .val v ∧ HasT md.ptr v r) := by
  have := C95_programs md C95_single hi (hp ▸ (C95_crate mc mc' d d' h h').1) o f ps r hf args ha
  exact ⟨this.1.symm, this.2⟩

/-- **C95.** The checker lets a program call public functions only: a call of another function of the crate, with
whatever arguments, has no type, and a function that is one such call has none. -/
theorem C95_private {o f : Id} (hf : (o, f) ∉ publicFns) (ret : T → Bool) (Γ : TEnv) (es : Exprs) :
    infer publicSig ret Γ (.call o f es) = none ∧
    ∀ (fn : Fn) ps r, fn.body = .call o f es → fnT publicSig fn ps r = false := by
  have key (ret : T → Bool) (Γ : TEnv) : infer publicSig ret Γ (.call o f es) = none := by
    rw [infer]
    cases inferArgs publicSig ret Γ es with
    | none => rfl
    | some as => simp only [Option.bind_some, callT, publicSig, if_neg hf, firstFit]
  refine ⟨key ret Γ, fun fn ps r hb => ?_⟩
  unfold fnT
  split
  · rw [hb, key]
  · rfl

/-! ## A program (the names are among those of the crate)

```rust
fn rd_value(inst: u32, isa: Isa) -> Option<usize> {
    match inst.decode(isa) {
        Ok(inst) => inst.rd,
        Err(_) => None,
    }
}
fn mask(inst: u32) -> bool {
    match rd_value(inst, Isa::Rv32) {
        Some(rd) => rd == 5,
        None => false,
    }
}
```
-/

def rdFn : Fn where
  owner := .lib_tests
  name := .rd_value
  params := [(.inst, .u32), (.isa, .other)]
  ret := .option .usize
  body := .match_ (.method (.var .inst) .decode (.cons (.var .isa) .nil))
    (.cons (.ctor1 .Result .Ok (.var .inst)) (.field (.var .inst) .rd)
    (.cons (.ctor1 .Result .Err .wild) (.variant .Option .None) .nil))

def isRdFn : Fn where
  owner := .lib_tests
  name := .mask
  params := [(.inst, .u32)]
  ret := .other
  body := .match_ (.call .lib_tests .rd_value (.cons (.var .inst) (.cons (.variant .Isa .Rv32) .nil)))
    (.cons (.ctor1 .Option .Some (.var .rd)) (.bin .eq (.var .rd) (.lit 5))
    (.cons (.ctor .Option .None) (.bool false) .nil))

def rdItem : Item where
  fn := rdFn
  params := [u32T, .named .Isa]
  ret := .option usizeT
  body := ((annotateFn publicSig rdFn ([u32T, .named .Isa], .option usizeT)).getD .unit)

def isRdItem : Item where
  fn := isRdFn
  params := [u32T]
  ret := .bool
  body := ((annotateFn (rdItem.declare publicSig) isRdFn ([u32T], .bool)).getD .unit)

theorem rd_typed : AllTyped publicSig [rdItem, isRdItem] :=
  .cons ⟨rfl, by kernel_rfl, annotateFn_sound (by kernel_rfl)⟩
    (.cons ⟨rfl, by kernel_rfl, annotateFn_sound (by kernel_rfl)⟩ .nil)

-- `addi t0, t0, 10` writes register 5
example : linkAll ⟨.checked, .w64⟩ (call crate ⟨.wrapping, .w64⟩ 6) [rdItem, isRdItem] .lib_tests .mask
    [emb (0x00a28293 : BitVec 32)] = .val (.bool true) := by kernel_rfl

example (w : BitVec 32) (mc : Build) (hp : mc.ptr = .w64) :
    linkAll ⟨.checked, .w64⟩ (call crate mc 6) [rdItem, isRdItem] .lib_tests .mask [emb w] =
    linkAll ⟨.checked, .w64⟩ (call crate ⟨.checked, .w32⟩ 7) [rdItem, isRdItem] .lib_tests .mask [emb w] :=
  (C95_builds ⟨.checked, .w64⟩ mc ⟨.checked, .w32⟩ 6 7 (Nat.le_refl 6) (by decide) hp rd_typed
    (ps := [u32T]) (r := .bool) (List.mem_singleton.2 rfl) (args := [emb w]) ⟨.u32 _ _, trivial⟩).1

/-- `fn shamt5(inst: u32) -> u32 { if mask(inst) { inst } else { shamt5(inst + 1) } }`, which looks for the next word
that writes register 5. -/
def untilFn : Fn where
  owner := .lib_tests
  name := .shamt5
  params := [(.inst, .u32)]
  ret := .u32
  body := .ite (.call .lib_tests .mask (.cons (.var .inst) .nil)) (.var .inst)
    (.call .lib_tests .shamt5 (.cons (.bin .add (.var .inst) (.lit 1)) .nil))

def untilItem : Item where
  fn := untilFn
  params := [u32T]
  ret := u32T
  body := (annotateFn (fun o f => if o = .lib_tests then
    (if f = .mask then [([u32T], .bool)] else if f = .shamt5 then [([u32T], u32T)] else []) else []) untilFn
    ([u32T], u32T)).getD .unit

theorem until_typed : ∀ i ∈ [rdItem, isRdItem, untilItem],
    i.Typed (declareRec publicSig [rdItem, isRdItem, untilItem]) := by
  intro i hi
  simp only [List.mem_cons, List.not_mem_nil, or_false] at hi
  obtain rfl | rfl | rfl := hi
  · exact ⟨rfl, by kernel_rfl, annotateFn_sound (by kernel_rfl)⟩
  · exact ⟨rfl, by kernel_rfl, annotateFn_sound (by kernel_rfl)⟩
  · exact ⟨rfl, by kernel_rfl, annotateFn_sound (by kernel_rfl)⟩

example : linkRec ⟨.checked, .w64⟩ (call crate ⟨.wrapping, .w64⟩ 6) [rdItem, isRdItem, untilItem] 6 .lib_tests .shamt5
    [emb (0x00a28291 : BitVec 32)] = .val (.u32 0x00a28293) := by kernel_rfl

-- the stack overflows
example : linkRec ⟨.checked, .w64⟩ (call crate ⟨.wrapping, .w64⟩ 6) [rdItem, isRdItem, untilItem] 4 .lib_tests .shamt5
    [emb (0x00a28291 : BitVec 32)] = .panic := by kernel_rfl

example (ps : List T) (r : T) : fnT publicSig { rdFn with body := .call .u32 .slice .nil } ps r = false :=
  (C95_private (by decide) (fun _ => true) [] .nil).2 _ _ _ rfl

end Raki
