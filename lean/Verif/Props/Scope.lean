import Verif.Source.Scopes
import Verif.Source.Signatures
/-!
# What names stand for, and what other crates can use

`resolve` gives Rust's rules for paths, with modules, imports and privacy.  The parser goes by a simpler rule, and the
theorems say that for this crate the two agree, for every path in every function and declaration, tests included.
Files: `src/lib.rs:24-38`, `src/decode.rs:1-16`, `src/instruction.rs:1-22` and the `use` lines of all files.
-/

namespace Raki

open Source

theorem samePath_eq : ∀ {p q : List Nat}, samePath p q = true ↔ p = q
  | [], [] => by simp [samePath]
  | [], _ :: _ => by simp [samePath]
  | _ :: _, [] => by simp [samePath]
  | a :: p, b :: q => by
    rw [samePath, List.cons.injEq, ← samePath_eq, Bool.and_eq_true, Nat.beq_eq]

theorem any_beq {n : Nat} {l : List Nat} : l.any (Nat.beq n) = true ↔ n ∈ l := by
  rw [List.any_eq_true]
  exact ⟨fun ⟨x, hx, e⟩ => (Nat.beq_eq.mp e) ▸ hx, fun h => ⟨n, h, Nat.beq_eq.mpr rfl⟩⟩

theorem not_any_beq {n : Nat} {l : List Nat} : (Bool.not (l.any (Nat.beq n))) = true ↔ n ∉ l := by
  rw [Bool.not_eq_true', ← Bool.not_eq_true, any_beq]

theorem distinct_nodup : ∀ {l : List Nat}, distinct l = true → l.Nodup
  | [], _ => List.nodup_nil
  | a :: l, h => by
    rw [distinct, Bool.and_eq_true, not_any_beq] at h
    exact List.nodup_cons.2 ⟨h.1, distinct_nodup h.2⟩

theorem samePaths_mem {l k : List (List Nat)} (h : samePaths l k = true) (p : List Nat) : p ∈ l ↔ p ∈ k := by
  rw [samePaths, Bool.and_eq_true, List.all_eq_true, List.all_eq_true] at h
  constructor
  · intro hp
    obtain ⟨q, hq, e⟩ := List.any_eq_true.1 (h.1 p hp)
    exact samePath_eq.1 e ▸ hq
  · intro hp
    obtain ⟨q, hq, e⟩ := List.any_eq_true.1 (h.2 p hp)
    exact samePath_eq.1 e ▸ hq

/-- The context in which the parser reads a path of a module. -/
def at_ (c : Ctx) (m : Module) (x : Mention) : Ctx := { c with mod := m.file, owner := x.owner }

/-- The function that the parser takes a path for: the owner and the name. -/
def takenFor (c : Ctx) : List Nat → Option (Nat × Nat)
  | [] => none
  | [n] => (c.ownerOf n).map (·, n)
  | n :: cs => some (qualified n cs)

/-- The parser agrees with what a path stands for. -/
def Agrees (c : Ctx) (ms : List Module) (m : Module) (x : Mention) : Option Target → Prop
  -- a function: the parser finds it, by the name of its module and its own
  | some (.item p .fn f) => ∃ o, ownerAt ms p = some o ∧ takenFor (at_ c m x) x.path = some (o, f)
  -- a type or trait, or something of it: it is written with its own name
  | some (.item _ _ y) => x.path = [y]
  | some (.member _ y v) => x.path = [y, v]
  -- something of another library: no name in it is one of a type of the crate or, alone, a function
  | some (.core _) => (∀ n ∈ x.path, n ∉ typeNames ms) ∧ ∀ n, x.path = [n] → takenFor (at_ c m x) [n] = none
  | some (.prelude y) => x.path.head? = some y ∧ y ∉ typeNames ms
  -- nothing: it is a single name, which is bound by `let`, or is that of no type and taken for no function
  | none | some (.mod _) => ∃ n, x.path = [n] ∧ (n ∈ x.lets ∨ n ∉ typeNames ms ∧ takenFor (at_ c m x) [n] = none)

theorem ownerOf_none {c : Ctx} {n : Nat} (h : (c.fns.any fun p => Nat.beq p.2 n) = false) : c.ownerOf n = none := by
  rw [Ctx.ownerOf, List.find?_eq_none]
  intro o _ e
  rw [Ctx.has, List.any_eq_true] at e
  obtain ⟨p, hp, e⟩ := e
  rw [Bool.and_eq_true] at e
  rw [List.any_eq_false] at h
  exact h p hp e.2

theorem agrees_of_readsAs {c : Ctx} {ms : List Module} {m : Module} {x : Mention} (h : readsAs c ms m x = true) :
    Agrees c ms m x (resolve ms 10 m.path x.uses x.path) := by
  have single : ∀ n, (x.lets.any (Nat.beq n)).or ((Bool.not ((typeNames ms).any (Nat.beq n))).and
      ((Bool.not ((at_ c m x).fns.any fun p => Nat.beq p.2 n)).or ((at_ c m x).ownerOf n).isNone)) = true →
      n ∈ x.lets ∨ n ∉ typeNames ms ∧ takenFor (at_ c m x) [n] = none := by
    intro n h
    rw [Bool.or_eq_true, Bool.and_eq_true, Bool.or_eq_true, any_beq, not_any_beq, Bool.not_eq_true'] at h
    refine h.imp id fun h => ⟨h.1, ?_⟩
    have : (at_ c m x).ownerOf n = none := h.2.elim ownerOf_none fun h => Option.isNone_iff_eq_none.1 h
    rw [takenFor, this]
    rfl
  unfold readsAs at h
  generalize hr : resolve ms 10 m.path x.uses x.path = r at h
  match r with
  | none =>
    match hp : x.path with
    | [n] => rw [hp] at h; exact ⟨n, hp, single n h⟩
    | [] => rw [hp] at h; cases h
    | _ :: _ :: _ => rw [hp] at h; cases h
  | some (.mod _) =>
    match hp : x.path with
    | [n] => rw [hp] at h; exact ⟨n, hp, single n h⟩
    | [] => rw [hp] at h; cases h
    | _ :: _ :: _ => rw [hp] at h; cases h
  | some (.item p .fn f) =>
    dsimp only at h
    change ∃ o, ownerAt ms p = some o ∧ takenFor (at_ c m x) x.path = some (o, f)
    cases ho : ownerAt ms p with
    | none =>
      rw [ho] at h
      match hp : x.path with
      | [] => rw [hp] at h; cases h
      | [n] => rw [hp] at h; cases h
      | _ :: _ :: _ => rw [hp] at h; cases h
    | some o =>
      refine ⟨o, rfl, ?_⟩
      rw [ho] at h
      match hp : x.path with
      | [] => rw [hp] at h; cases h
      | [n] =>
        rw [hp] at h
        change (match (at_ c m x).ownerOf n with
          | some o' => (Nat.beq n f).and (Nat.beq o o')
          | none => false) = true at h
        rw [takenFor]
        cases hf : (at_ c m x).ownerOf n with
        | none => rw [hf] at h; cases h
        | some o' =>
          rw [hf] at h
          dsimp only at h
          rw [Bool.and_eq_true, Nat.beq_eq, Nat.beq_eq] at h
          rw [h.1, h.2]; rfl
      | n :: b :: cs =>
        rw [hp] at h
        change ((Nat.beq (qualified n (b :: cs)).1 o).and (Nat.beq (qualified n (b :: cs)).2 f)) = true at h
        rw [Bool.and_eq_true, Nat.beq_eq, Nat.beq_eq] at h
        exact congrArg some (Prod.ext h.1 h.2)
  | some (.item _ .type y) => exact samePath_eq.1 h
  | some (.item _ .trait y) => exact samePath_eq.1 h
  | some (.member _ y v) => exact samePath_eq.1 h
  | some (.core _) =>
    dsimp only at h
    rw [Bool.and_eq_true, Bool.not_eq_true', List.any_eq_false] at h
    refine ⟨fun n hn e => h.1 n hn (any_beq.2 e), fun n hp => ?_⟩
    have h := h.2
    rw [hp] at h
    exact congrArg (Option.map (·, n)) (Option.isNone_iff_eq_none.1 h)
  | some (.prelude y) =>
    dsimp only at h
    rw [Bool.and_eq_true, not_any_beq] at h
    refine ⟨?_, h.2⟩
    have h := h.1
    match hp : x.path with
    | [] => rw [hp] at h; cases h
    | n :: _ =>
      rw [hp, startOf, Bool.and_eq_true, Nat.beq_eq] at h
      rw [h.1]; rfl

/-- **C87.** The text of the crate, compiled for tests, has modules and paths as Rust requires, and every path is read
by the parser as what it stands for. -/
theorem C87_names : ∃ r, scopesOf places files = some r ∧
    ∀ m ∈ r.mods, ∀ x ∈ m.mentions, Agrees r.ctx r.mods m x (resolve r.mods 10 m.path x.uses x.path) := by
  obtain ⟨r, h, ha, -⟩ := scope_files
  exact ⟨r, h, fun m hm x hx => agrees_of_readsAs (List.all_eq_true.1 (List.all_eq_true.1 ha m hm) x hx)⟩

/-- **C87.** No two types or traits of the crate have the same name, so that the name alone says which is meant. -/
theorem C87_types : ∃ r, scopesOf places files = some r ∧ (typeNames r.mods).Nodup := by
  obtain ⟨r, h, -, hd, -⟩ := scope_files
  exact ⟨r, h, distinct_nodup hd⟩

/-- **C87.** The modules that are declared to be in files of their own are, with the root, exactly those of the files that
were read. -/
theorem C87_files : ∃ r, scopesOf places files = some r ∧ files.length = places.length ∧
    ∀ p, p = [] ∨ (∃ m ∈ r.mods, ∃ v n, (v, true, n) ∈ m.mods ∧ p = m.path ++ [n]) ↔
      p ∈ places.map fun p => p.map spelled := by
  obtain ⟨r, h, -, -, hp, -⟩ := scope_files
  refine ⟨r, h, rfl, fun p => ?_⟩
  rw [← samePaths_mem hp, List.mem_cons, fileMods, List.mem_flatMap]
  refine or_congr Iff.rfl ⟨?_, ?_⟩
  · rintro ⟨m, hm, v, n, hn, rfl⟩
    exact ⟨m, hm, List.mem_filterMap.2 ⟨_, hn, rfl⟩⟩
  · rintro ⟨m, hm, hx⟩
    obtain ⟨⟨v, b, n⟩, hn, e⟩ := List.mem_filterMap.1 hx
    cases b with
    | false => cases e
    | true => exact ⟨m, hm, v, n, hn, (Option.some.inj e).symm⟩

theorem within_infix : ∀ {p q : List Nat}, within p q = true → p <:+: q ∧ p.length ≤ 2 ∧ (p.length = 1 → p = q)
  | [f], [g], h => by
    rw [within, Nat.beq_eq] at h
    exact ⟨⟨[], [], by rw [h]; rfl⟩, Nat.le_succ 1, fun _ => by rw [h]⟩
  | [a, b], x :: y :: q, h => by
    rw [within, Bool.or_eq_true, Bool.and_eq_true, Nat.beq_eq, Nat.beq_eq] at h
    refine ⟨?_, Nat.le_refl _, nofun⟩
    rcases h with ⟨rfl, rfl⟩ | h
    · exact ⟨[], q, rfl⟩
    · obtain ⟨⟨s, t, e⟩, -⟩ := within_infix h
      exact ⟨x :: s, t, by rw [← e]; rfl⟩
  | [], _, h => by simp [within] at h
  | [_], [], h => by simp [within] at h
  | [_], _ :: _ :: _, h => by simp [within] at h
  | [_, _], [], h => by simp [within] at h
  | [_, _], [_], h => by simp [within] at h
  | _ :: _ :: _ :: _, _, h => by simp [within] at h

/-- **C87.** The paths of the modules leave nothing out: wherever in a file a name is applied to arguments, or two names
are joined by `::`, this is one of the paths of a module of the file, or two neighbours in one of them. -/
theorem C87_covers : ∃ r, scopesOf places files = some r ∧
    lexFiles (files.map fun (m, ls) => (spelled m, ls.map codes)) = some r.toks ∧
    ∀ f ts, (f, ts) ∈ r.toks → ∀ p ∈ usesIn 0 none [] ts, ∃ m ∈ r.mods, m.file = f ∧ ∃ x ∈ m.mentions,
      p <:+: x.path ∧ (p.length = 1 → p = x.path) := by
  obtain ⟨r, h, -, -, -, hc, -⟩ := scope_files
  refine ⟨r, h, ?_, fun f ts ht p hp => ?_⟩
  · unfold scopesOf at h
    rw [Option.bind_eq_some_iff] at h
    obtain ⟨us, hu, h⟩ := h
    simp only [scopes, Option.bind_eq_some_iff, Option.map_eq_some_iff] at h
    obtain ⟨_, _, _, _, _, _, rfl⟩ := h
    exact hu
  · obtain ⟨m, hm, e⟩ := List.any_eq_true.1 (List.all_eq_true.1 (List.all_eq_true.1 hc _ ht) p hp)
    rw [Bool.and_eq_true, Nat.beq_eq] at e
    obtain ⟨x, hx, hw⟩ := List.any_eq_true.1 e.2
    exact ⟨m, hm, e.1, x, hx, (within_infix hw).1, (within_infix hw).2.2⟩

/-- **C87.** What the parser takes a path for is what a call of it calls. -/
theorem C87_calls {c : Ctx} {n : Nat} {cs : List Nat} {as : List Expr} {o f : Id} {es : Exprs}
    (h : callOf c n cs as = some (.call o f es)) (hn : cs = [] → n ∉ c.closures) :
    ∃ o' f', takenFor c (n :: cs) = some (o', f') ∧ ident o' = some o ∧ ident f' = some f := by
  have owned : ∀ cs, cs ≠ [] → callOf.owned c n cs as = some (.call o f es) →
      ∃ o' f', takenFor c (n :: cs) = some (o', f') ∧ ident o' = some o ∧ ident f' = some f := by
    intro cs hcs h
    have ht : takenFor c (n :: cs) = some (qualified n cs) := by
      cases cs with
      | nil => exact absurd rfl hcs
      | cons b cs => rfl
    rw [ht]
    refine ⟨_, _, rfl, ?_⟩
    unfold callOf.owned at h
    split at h
    · simp only [Option.bind_eq_bind, Option.bind_eq_some_iff, Option.some.injEq, Expr.call.injEq] at h
      obtain ⟨o', ho, f', hf, rfl, rfl, -⟩ := h
      exact ⟨ho, hf⟩
    · cases h
  match cs with
  | [] =>
    have hn : c.closures.any (Nat.beq n) = false := Bool.eq_false_iff.2 fun e => hn rfl (any_beq.1 e)
    unfold callOf at h
    dsimp only at h
    rw [hn] at h
    dsimp only at h
    split at h
    · cases h
    · cases h
    · cases h
    · simp only [Option.bind_eq_bind, Option.bind_eq_some_iff, Option.some.injEq, Expr.call.injEq] at h
      obtain ⟨o', ho, o'', ho', rfl, rfl, -⟩ := h
      exact ⟨o', n, by rw [takenFor, ho]; rfl, ho', by assumption⟩
    · cases h
  | [m] =>
    unfold callOf at h
    dsimp only at h
    split at h
    · simp [Option.bind_eq_some_iff] at h
    · split at h
      · split at h <;> cases h
      · exact owned [m] (by simp) h
  | a :: b :: cs => exact owned (a :: b :: cs) (by simp) h

/-- **C88.** What another crate can name is exactly the `publicNames`, each at the root of the crate. -/
theorem C88_names : ∃ r, scopesOf places files = some r ∧
    exports r.lib 5 [] = publicNames.map fun (n, p, t) =>
      ([spelled n], some (.item (p.map spelled) (if t then .trait else .type) (spelled n))) := by
  obtain ⟨r, h, -, -, -, -, he, -⟩ := scope_files
  refine ⟨r, h, he.trans ?_⟩
  rw [publicItems, List.map_map]
  refine List.map_congr_left fun e _ => ?_
  obtain ⟨n, p, t⟩ := e
  cases t <;> rfl

/-- **C88.** The functions that another crate can call. -/
theorem C88_functions : ∃ r, scopesOf places files = some r ∧
    (callable r.lib).map (fun e => (e.1.bind ident, ident e.2)) = publicFns.map fun e => (some e.1, some e.2) := by
  obtain ⟨r, h, -, -, -, -, -, hc, -⟩ := scope_files
  exact ⟨r, h, hc⟩

/-- The types of the crate in a type. -/
def namedIn : T → List Id
  | .named x => [x]
  | .option a => namedIn a
  | .result a e => namedIn a ++ namedIn e
  | .array a => namedIn a
  | _ => []

/-- The name of a type is one that another crate can use. -/
def Public (x : Id) : Prop := ∃ e ∈ publicNames, e.2.2 = false ∧ ident (spelled e.1) = some x

/-- The types among the `publicNames`. -/
def publicTypes : List Id :=
  [.Isa, .DecodingError, .AOpcode, .BaseIOpcode, .COpcode, .MOpcode, .PrivOpcode, .ZicbozOpcode, .ZicfissOpcode,
   .ZicntrOpcode, .ZicsrOpcode, .ZifenceiOpcode, .InstFormat, .Instruction, .OpcodeKind]

theorem public_types : ∀ x ∈ publicTypes, Public x := by
  have hc : (publicCodes.filterMap fun (n, _, t) => if t then none else ident (spell n 0)) = publicTypes := by
    kernel_rfl
  have he : (publicNames.filterMap fun (n, _, t) => if t then none else ident (spelled n)) = publicTypes := by
    rw [← hc]
    have := congrArg (List.filterMap fun (e : Nat × List Nat × Bool) => if e.2.2 then none else ident e.1) public_eq
    rwa [List.filterMap_map, List.filterMap_map] at this
  intro x hx
  rw [← he, List.mem_filterMap] at hx
  obtain ⟨⟨n, p, t⟩, hm, e⟩ := hx
  cases t with
  | true => cases e
  | false => exact ⟨_, hm, rfl, e⟩

/-- **C88.** Nothing that another crate can call or look into mentions a type that it cannot name: neither the parameters
and results of the functions, nor the fields of an instruction, nor what the variants of the public types hold. -/
theorem C88_closed :
    (∀ e ∈ publicFns, sigAt 6 e.1 e.2 ≠ [] ∧ ∀ q ∈ sigAt 6 e.1 e.2, ∀ t ∈ q.2 :: q.1, ∀ x ∈ namedIn t, Public x) ∧
    (∀ q ∈ (membersOf .Instruction).getD [], ∀ x ∈ namedIn q.2, Public x) ∧
    ∀ y ∈ publicTypes, ∀ v ∈ (variants y).getD [], ∀ x ∈ v.2, Public x := by
  have h1 : ∀ e ∈ publicFns, sigAt 6 e.1 e.2 ≠ [] ∧
      ∀ q ∈ sigAt 6 e.1 e.2, ∀ t ∈ q.2 :: q.1, ∀ x ∈ namedIn t, x ∈ publicTypes := by
    have h : (publicFns.all fun e => (Bool.not (sigAt 6 e.1 e.2).isEmpty).and ((sigAt 6 e.1 e.2).all fun q =>
        (q.2 :: q.1).all fun t => (namedIn t).all fun x => publicTypes.any (same x))) = true := by kernel_rfl
    intro e he
    have := List.all_eq_true.1 h e he
    rw [Bool.and_eq_true] at this
    refine ⟨fun e0 => (by rw [e0] at this; cases this.1), fun q hq t ht x hx => ?_⟩
    obtain ⟨y, hy, e⟩ := List.any_eq_true.1
      (List.all_eq_true.1 (List.all_eq_true.1 (List.all_eq_true.1 this.2 q hq) t ht) x hx)
    rw [of_decide_eq_true e]
    exact hy
  have h2 : ∀ q ∈ (membersOf .Instruction).getD [], ∀ x ∈ namedIn q.2, x ∈ publicTypes := by decide
  have h3 : ∀ y ∈ publicTypes, ∀ v ∈ (variants y).getD [], ∀ x ∈ v.2, x ∈ publicTypes := by
    have h : (publicTypes.all fun y => ((variants y).getD []).all fun v => v.2.all fun x => publicTypes.any (same x)) =
        true := by kernel_rfl
    intro y hy v hv x hx
    have := List.all_eq_true.1 (List.all_eq_true.1 h y hy) v hv
    rw [hx] at this
    obtain ⟨z, hz, e⟩ := List.any_eq_true.1 this
    rw [of_decide_eq_true e]
    exact hz
  exact ⟨fun e he => ⟨(h1 e he).1, fun q hq t ht x hx => public_types x ((h1 e he).2 q hq t ht x hx)⟩,
    fun q hq x hx => public_types x (h2 q hq x hx), fun y hy v hv x hx => public_types x (h3 y hy v hv x hx)⟩

/-- **C90.** Of everything outside the crate, the crate itself, apart from its tests, names only `Display`, `Formatter`
and `Result` of `core::fmt`, and the types and constructors of `preludeWords`. -/
theorem C90_outside : ∃ r, scopesOf places files = some r ∧ ∀ m ∈ r.lib, ∀ x ∈ m.mentions,
    (∀ q, resolve r.lib 10 m.path x.uses x.path = some (.core q) → ∃ p ∈ corePaths, q = p.map spelled) ∧
    (∀ n, resolve r.lib 10 m.path x.uses x.path = some (.prelude n) → ∃ w ∈ preludeWords, n = spelled w) := by
  obtain ⟨r, h, -, -, -, -, -, -, hu, -⟩ := scope_files
  refine ⟨r, h, fun m hm x hx => ?_⟩
  have := List.all_eq_true.1 (List.all_eq_true.1 hu m hm) x hx
  constructor
  · intro q e
    rw [e] at this
    obtain ⟨p, hp, e⟩ := List.any_eq_true.1 this
    obtain ⟨p', hp', rfl⟩ := List.mem_map.1 hp
    exact ⟨p', hp', samePath_eq.1 e⟩
  · intro n e
    rw [e] at this
    obtain ⟨w, hw, e⟩ := List.mem_map.1 (any_beq.1 this)
    exact ⟨w, hw, e.symm⟩

theorem lacks_mem {ws : List Nat} {n : Nat} (hn : n ∈ ws) : ∀ {ts : List Tok}, lacks ws ts = true → Tok.name n ∉ ts
  | [], _ => List.not_mem_nil
  | t :: ts, h => by
    intro hm
    rcases List.mem_cons.1 hm with rfl | hm
    · rw [lacks, Bool.and_eq_true, not_any_beq] at h
      exact h.1 hn
    · refine lacks_mem hn (ts := ts) ?_ hm
      cases t with
      | name k => rw [lacks, Bool.and_eq_true] at h; exact h.2
      | _ => exact h

/-- **C90.** No file has a word of the `unusedWords`: there is no unsafe code, no global variable, no loop but `for`, and
no call through a pointer. -/
theorem C90_words : ∃ r, scopesOf places files = some r ∧
    lexFiles (files.map fun (m, ls) => (spelled m, ls.map codes)) = some r.toks ∧
    ∀ f ts, (f, ts) ∈ r.toks → ∀ w ∈ unusedWords, Tok.name (spelled w) ∉ ts := by
  obtain ⟨r, h, -, -, -, -, -, -, -, hl⟩ := scope_files
  refine ⟨r, h, ?_, fun f ts ht w hw => lacks_mem (List.mem_map_of_mem hw) (List.all_eq_true.1 hl _ ht)⟩
  unfold scopesOf at h
  rw [Option.bind_eq_some_iff] at h
  obtain ⟨us, hu, h⟩ := h
  simp only [scopes, Option.bind_eq_some_iff, Option.map_eq_some_iff] at h
  obtain ⟨_, _, _, _, _, _, rfl⟩ := h
  exact hu

/-- **C90.** A word that is not among the `words` of the lexer and is written in a line is a token of it, so that the
tokens would show it. -/
theorem C90_words_example : lexLine 400 (codes "let x = unsafe { y };") = some
    [.kw .«let», .name (spelled "x"), .op .eq, .name (spelled "unsafe"), .op .lbrace, .name (spelled "y"), .op .rbrace,
     .op .semi] := by
  rfl

/-- A crate with a private function `1` and a public function `2` in a private module `3`, which it imports publicly,
and a module `4` that uses them. -/
def sample : List Module :=
  [{ Module.new [] 0 0 with mods := [(false, true, 3), (false, true, 4)], uses := [(true, [3, 2])] },
   { Module.new [3] 3 3 with items := [⟨false, .fn, 1⟩, ⟨true, .fn, 2⟩], mods := [(false, false, 5)] },
   { Module.new [3, 5] 3 5 with uses := [(false, [superName, 1])] },
   { Module.new [4] 4 4 with uses := [(false, [crateName, 3, 2])], items := [⟨false, .fn, 6⟩] }]

/-- **C87.** Examples of paths: an imported name, one that is known through the root, one that is private, and one that
is private but used from inside the module; a module with private imports only makes nothing known. -/
theorem C87_examples :
    resolve sample 10 [4] [] [2] = some (.item [3] .fn 2) ∧
    resolve sample 10 [4] [] [crateName, 2] = some (.item [3] .fn 2) ∧
    resolve sample 10 [4] [] [crateName, 3, 1] = none ∧
    resolve sample 10 [4] [] [1] = none ∧
    resolve sample 10 [3, 5] [] [1] = some (.item [3] .fn 1) ∧
    resolve sample 10 [4] [[superName, 4, 6]] [6] = some (.item [4] .fn 6) ∧
    exports sample 5 [] = [([2], some (.item [3] .fn 2))] ∧
    exports sample 5 [4] = [] ∧
    callable sample = [(some 3, 2)] := by
  refine ⟨?_, ?_, ?_, ?_, ?_, ?_, ?_, ?_, ?_⟩ <;> rfl

end Raki
