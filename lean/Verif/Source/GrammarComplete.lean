import Verif.Source.Codes
import Verif.Source.GrammarSound
/-!
# The reader reads every phrase of the grammar

`complete`: whatever tokens form a phrase, and whatever follows them that cannot go on with it, the reader, nesting
deep enough, reads just that phrase and gives its tree.
-/

set_option linter.constructorNameAsVariable false

namespace Raki.Source

/-! ## What can go on with a phrase -/

/-- The strength at which a token goes on with the expression before it; whether `{` does depends on the place. -/
def goesOn (c : Ctx) : Tok → Option Nat
  | .op .eqEq | .op .ge => some 0
  | .op .bar => some 1
  | .op .amp => some 2
  | .op .shl | .op .shr => some 3
  | .op .plus | .op .minus => some 4
  | .kw .as => some 5
  | .op .quest | .op .dot => some 7
  | .op .lparen | .op .colon2 | .op .lt | .kw .else => some 8
  | .op .lbrace => if c.structOk then some 8 else none
  | _ => none

/-- The tokens do not go on with an expression of strength `l` or more. -/
def Ends (c : Ctx) (l : Nat) (rest : List Tok) : Prop :=
  ∀ t ts, rest = t :: ts → ∀ k, goesOn c t = some k → k < l

/-- The tokens do not start with this one. -/
def StartsNot (t : Tok) (rest : List Tok) : Prop := ∀ ts, rest ≠ t :: ts

theorem Ends.mono {c : Ctx} {l m : Nat} (hlm : l ≤ m) {rest : List Tok} (h : Ends c l rest) : Ends c m rest :=
  fun t ts e k hk => Nat.lt_of_lt_of_le (h t ts e k hk) hlm

theorem Ends.not {c : Ctx} {l k : Nat} {t : Tok} {rest : List Tok} (h : Ends c l rest) (hk : goesOn c t = some k)
    (hl : l ≤ k) : StartsNot t rest :=
  fun ts e => by have := h t ts e k hk; omega

theorem ends_of {c : Ctx} {l : Nat} {t : Tok} {ts : List Tok} (h : goesOn c t = none) : Ends c l (t :: ts) := by
  intro u us e k hk
  cases e
  rw [h] at hk; cases hk

theorem ends_op {c : Ctx} (o : BinOp) {ts : List Tok} : Ends c (o.strength + 1) (.op o.op :: ts) := by
  intro u us e k hk
  cases e
  cases o <;> cases hk <;> decide

theorem bin_ends (r : Rules) {c : Ctx} {l : Nat} (e : Expr) {rest : List Tok} (h : Ends c l rest) :
    binP r c l e rest = some (e, rest) := by
  unfold binP
  split
  · next o us =>
    cases hi : infixOp o with
    | none => rfl
    | some p =>
      obtain ⟨rfl, hs⟩ := infix_some (b := p.2) hi
      have := h _ _ rfl p.1 (by rw [hs]; cases p.2 <;> rfl)
      have : Nat.beq l p.1 = false := by
        rw [Bool.eq_false_iff]; intro h; have := Nat.eq_of_beq_eq_true h; omega
      simp only [this]
  · rfl

theorem cast_ends (r : Rules) {c : Ctx} (e : Expr) {rest : List Tok} (h : Ends c 5 rest) :
    castP r c e rest = some (e, rest) := by
  unfold castP
  split
  · exact absurd rfl (h.not (k := 5) rfl (by omega) _)
  · rfl

theorem post_ends (r : Rules) {c : Ctx} (e : Expr) {rest : List Tok} (h : Ends c 7 rest) :
    postP r c e rest = some (e, rest) := by
  cases rest with
  | nil => rfl
  | cons t ts => cases t with
    | op o => cases o with
      | quest => exact absurd rfl (h.not (k := 7) rfl (by omega) _)
      | dot => exact absurd rfl (h.not (k := 7) rfl (by omega) _)
      | _ => rfl
    | _ => rfl

/-! ## Small pieces -/

theorem want_other {o : Op} {t : Tok} {ts : List Tok} (h : t ≠ .op o) : want o (t :: ts) = none := by
  cases hw : want o (t :: ts) with
  | none => rfl
  | some us =>
    have := want_some hw
    cases this
    exact absurd rfl h

theorem want_none {o : Op} {rest : List Tok} (h : StartsNot (.op o) rest) : want o rest = none := by
  cases hw : want o rest with
  | none => rfl
  | some us => exact absurd (want_some hw) (h us)

theorem skipRefs_refs : ∀ {rs : List Tok} (ts : List Tok), Refs rs → skipRefs (rs ++ ts) = skipRefs ts
  | [], _, _ => rfl
  | r :: rs, ts, h => by
    have ih := skipRefs_refs ts fun t ht => h t (List.mem_cons_of_mem _ ht)
    rcases h r (List.mem_cons_self ..) with rfl | rfl | rfl <;> exact ih

theorem skipParens_closes : ∀ {d : Nat} {us : List Tok} (rest : List Tok), Closes .lparen .rparen (d + 1) us →
    skipParens (d + 1) (us ++ rest) = some rest := by
  suffices ∀ (us rest : List Tok) (d : Nat), Closes .lparen .rparen (d + 1) us →
    skipParens (d + 1) (us ++ rest) = some rest from fun {d us} rest h => this us rest d h
  intro us
  induction us with
  | nil => intro rest d h; cases h
  | cons t us ih =>
    intro rest d h
    cases h with
    | enter h =>
      have := ih rest _ h
      cases d <;> simpa [skipParens] using this
    | leave h =>
      cases d with
      | zero => cases h; rfl
      | succ d => simpa [skipParens] using ih rest _ h
    | other hl hr h =>
      have := ih rest _ h
      rw [List.cons_append, skipParens, this]
      all_goals intros; first | exact hl ‹_› | exact hr ‹_›

theorem skipAttrs_closes : ∀ {d : Nat} {us : List Tok} (rest : List Tok), Closes .lbrack .rbrack d us →
    skipAttrs d (us ++ rest) = skipAttrs 0 rest := by
  suffices ∀ (us rest : List Tok) (d : Nat), Closes .lbrack .rbrack d us →
    skipAttrs d (us ++ rest) = skipAttrs 0 rest from fun {d us} rest h => this us rest d h
  intro us
  induction us with
  | nil => intro rest d h; cases h; rfl
  | cons t us ih =>
    intro rest d h
    cases h with
    | enter h => simpa [skipAttrs] using ih rest _ h
    | leave h => simpa [skipAttrs] using ih rest _ h
    | other hl hr h =>
      rw [← ih rest _ h, List.cons_append]
      rw [skipAttrs]
      · exact hl
      · exact hr

theorem skipAttrs_attributes {as : List Tok} (h : Attributes as) (rest : List Tok) :
    skipAttrs 0 (as ++ rest) = skipAttrs 0 rest := by
  induction h with
  | nil => rfl
  | @outer _ vs hc _ ih =>
    have e := skipAttrs_closes (vs ++ rest) hc
    simp only [List.cons_append, List.append_assoc, skipAttrs]
    rw [e, ih]
  | @inner _ vs hc _ ih =>
    have e := skipAttrs_closes (vs ++ rest) hc
    simp only [List.cons_append, List.append_assoc, skipAttrs]
    rw [e, ih]

theorem skipAttrs_stop {t : Tok} {ts : List Tok} (h : t ≠ .op .hash) : skipAttrs 0 (t :: ts) = some (t :: ts) := by
  unfold skipAttrs
  split <;> simp_all

theorem skipTo_until {o : Op} : ∀ {us : List Tok} (rest : List Tok), .op o ∉ us →
    skipTo o (us ++ .op o :: rest) = some rest
  | [], rest, _ => by simp [skipTo, want_op]
  | t :: us, rest, h => by
    have ht : t ≠ .op o := fun e => h (e ▸ List.mem_cons_self ..)
    rw [List.cons_append, skipTo, want_other ht]
    exact skipTo_until rest fun hm => h (List.mem_cons_of_mem _ hm)

theorem eat_comma_not {rest : List Tok} (h : StartsNot (.op .comma) rest) : eat .comma rest = (false, rest) := by
  simp [eat, want_none h]

theorem eat_comma (rest : List Tok) : eat .comma (.op .comma :: rest) = (true, rest) := rfl

theorem sep_comma (o : Op) (rest : List Tok) : sep o (.op .comma :: rest) = some rest := rfl

theorem sep_close {o : Op} (h : o ≠ .comma) (rest : List Tok) : sep o (.op o :: rest) = some (.op o :: rest) := by
  have : want .comma (.op o :: rest) = none := want_other fun e => h (by cases e; rfl)
  simp [sep, this, want_op]

theorem ident_underscore : ident 95 = none := by kernel_rfl

/-! ## Reading a phrase -/

/-- With rules that nest deep enough. -/
def Deep {α : Type} (f : Rules → Option α) (x : α) : Prop := ∃ N, ∀ n, N ≤ n → f (rules n) = some x

theorem Deep.step {α : Type} {f g : Rules → Option α} {x : α} (h : Deep f x) (e : ∀ n, g (rules (n + 1)) = f (rules n)) :
    Deep g x := by
  obtain ⟨N, h⟩ := h
  refine ⟨N + 1, fun n hn => ?_⟩
  obtain ⟨m, rfl⟩ : ∃ m, n = m + 1 := ⟨n - 1, by omega⟩
  rw [e, h m (by omega)]

theorem Deep.const {α : Type} {f : Rules → Option α} {x : α} (h : ∀ r, f r = some x) : Deep f x :=
  ⟨0, fun _ _ => h _⟩

/-- What follows an expression of strength `l` is read on from the expression. -/
def more (r : Rules) (c : Ctx) (l : Nat) (e : Expr) (ts : List Tok) : Option (Expr × List Tok) :=
  match l with
  | 5 => r.cast c e ts
  | l => r.bin c l e ts

/-- What reading a phrase of this kind means: whatever follows that cannot go on with it is left. -/
def Readable : (k : Cat) → Ctx → List Tok → k.Tree → Prop
  | .ty, c, us, v => ∀ rest, StartsNot (.op .lt) rest → StartsNot (.op .colon2) rest → Deep (fun r => r.ty c (us ++ rest)) (v, rest)
  | .tyArgs, c, us, v => (us = [] ∨ ∃ vs, us = .op .lt :: vs) ∧
      ∀ rest, StartsNot (.op .lt) rest → Deep (fun r => tyArgs r c (us ++ rest)) (v, rest)
  | .segs, _, us, v => ∀ rest, StartsNot (.op .colon2) rest → Deep (fun r => r.segs (us ++ rest)) (v, rest)
  | .path, c, us, v => ∀ rest, StartsNot (.op .colon2) rest → Deep (fun r => path r c (us ++ rest)) (v, rest)
  | .ctor, c, us, v => ∀ rest x, StartsNot (.op .colon2) rest → Deep (fun r => pat1.ctorP r c v.1 v.2 rest) x →
      Deep (fun r => pat1 r c (us ++ rest)) x
  | .pat1, c, us, v => ∀ rest, StartsNot (.op .colon2) rest → StartsNot (.op .lparen) rest → StartsNot (.op .dotDotEq) rest →
      Deep (fun r => pat1 r c (us ++ rest)) (v, rest)
  | .pat, c, us, v => ∀ rest, StartsNot (.op .colon2) rest → StartsNot (.op .lparen) rest → StartsNot (.op .dotDotEq) rest →
      StartsNot (.op .bar) rest → Deep (fun r => r.pat c (us ++ rest)) (v, rest)
  | .args o, c, us, v => o = .rparen ∨ o = .rbrack → ∀ rest, Deep (fun r => r.args c o (us ++ rest)) (v, rest)
  | .whole, c, us, v => ∀ rest, Ends c 0 rest → Deep (fun r => r.expr c 0 (us ++ rest)) (v, rest)
  | .expr l, c, us, v => l ≤ 5 ∧ ∀ rest x, Ends c (l + 1) rest → Deep (fun r => more r c l v rest) x →
      Deep (fun r => r.expr c l (us ++ rest)) x
  | .unary, c, us, v => ∀ rest, Ends c 7 rest → Deep (fun r => r.unary c (us ++ rest)) (v, rest)
  | .post, c, us, v => ∀ rest x, Ends c 8 rest → Deep (fun r => r.post c v rest) x →
      Deep (fun r => r.unary c (us ++ rest)) x
  | .prim, c, us, v => ∀ rest, StartsNot (.kw .else) rest → (¬ Blocky us → Ends c 8 rest) →
      Deep (fun r => primary r c (us ++ rest)) (v, rest)
  | .block, c, us, v => ∀ rest, Deep (fun r => blockP r c (us ++ rest)) (v, rest)
  | .arms, c, us, v => ∀ rest, Deep (fun r => r.arms c (us ++ rest)) (v, rest)
  | .fields, c, us, v => ∀ rest, Deep (fun r => r.fields c (us ++ rest)) (v, rest)
  | .params, c, us, v => ∀ rest n, us.length ≤ n → Deep (fun r => closureParams r c n (us ++ rest)) (v, rest)
  | .annot, c, us, v => ∀ rest, StartsNot (.op .lt) rest → StartsNot (.op .colon2) rest → StartsNot (.op .colon) rest →
      Deep (fun r => annot r c (us ++ rest)) (v, rest)
  | .sides, c, us, v => ∀ rest, Deep (fun r => sidesP r c (us ++ rest)) (v, rest)
  | .stmts, c, us, v => ∀ rest, Deep (fun r => r.stmts c (us ++ rest)) (v, rest)
  | .bare, c, us, v => ∀ rest, Deep (fun r => bareP r c (us ++ rest)) (v, rest)

theorem Deep.bind {α β : Type} {f : Rules → Option α} {g : Rules → α → Option β} {a : α} {x : β} (hf : Deep f a)
    (hg : Deep (fun r => g r a) x) : Deep (fun r => (f r).bind (g r)) x := by
  obtain ⟨N, hf⟩ := hf
  obtain ⟨M, hg⟩ := hg
  refine ⟨max N M, fun n hn => ?_⟩
  simp only [hf n (by omega), Option.bind_some, hg n (by omega)]

theorem Deep.congr {α : Type} {f g : Rules → Option α} {x : α} (h : Deep f x) (e : ∀ r, g r = f r) : Deep g x := by
  obtain ⟨N, h⟩ := h
  exact ⟨N, fun n hn => (e _).trans (h n hn)⟩

section
variable {c : Ctx}

/-! ## Types -/

theorem ty_step {us : List Tok} {t : Ty} {rest : List Tok} (h : Deep (fun r => tyP r c us) (t, rest)) :
    Deep (fun r => r.ty c us) (t, rest) := h.step fun _ => rfl

theorem read_tyRef {t : Tok} {us : List Tok} {v : Ty} (ht : t = .op .amp ∨ t = .kw .mut ∨ t = .life)
    (h : Readable .ty c us v) : Readable .ty c (t :: us) v := by
  intro rest h1 h2
  obtain ⟨N, h⟩ := h rest h1 h2
  refine ⟨N + 1, fun n hn => ?_⟩
  obtain ⟨m, rfl⟩ : ∃ m, n = m + 1 := ⟨n - 1, by omega⟩
  rw [← h (m + 1) (by omega)]
  rcases ht with rfl | rfl | rfl <;> rfl

theorem read_tyArray {us : List Tok} {t : Ty} (h : Readable .ty c us t) :
    Readable .ty c (.op .lbrack :: us ++ [.op .rbrack]) (.array t) := by
  intro rest _ _
  have h := h (.op .rbrack :: rest) (by intro; simp) (by intro; simp)
  refine ty_step ((h.bind (g := fun _ p => (want .rbrack p.2).bind fun us => some (.array p.1, us)) (.const fun _ => ?_)).congr
    fun r => ?_)
  · rfl
  · simp only [List.cons_append, List.append_assoc, List.nil_append]; rfl

theorem read_tySelf : Readable .ty c [.kw .Self] (namedTy c none []) := by
  intro rest _ h
  refine ty_step (.const fun r => ?_)
  show tyP r c (.kw .Self :: rest) = _
  unfold tyP
  simp only [skipRefs]
  split <;> simp_all [StartsNot]

theorem read_tyPath {n : Nat} {us : List Tok} {t : Ty} (h : Readable .ty c us t) :
    Readable .ty c (.name n :: .op .colon2 :: us) t :=
  fun rest h1 h2 => ty_step ((h rest h1 h2).congr fun _ => rfl)

theorem read_tyName {n : Nat} {us : List Tok} {ts : List Ty} (h : Readable .tyArgs c us ts) :
    Readable .ty c (.name n :: us) (namedTy c (some n) ts) := by
  intro rest h1 h2
  refine ty_step (((h.2 rest h1).bind (g := fun _ p => some (namedTy c (some n) p.1, p.2)) (.const fun _ => rfl)).congr
    fun r => ?_)
  have : StartsNot (.op .colon2) (us ++ rest) := by
    rcases h.1 with rfl | ⟨vs, rfl⟩
    · exact h2
    · intro ts; simp
  show tyP r c (.name n :: (us ++ rest)) = _
  unfold tyP
  simp only [skipRefs]
  split <;> simp_all [StartsNot]

theorem read_tyArgs0 : Readable .tyArgs c [] [] := by
  refine ⟨Or.inl rfl, fun rest h => .const fun r => ?_⟩
  show tyArgs r c rest = _
  unfold tyArgs
  split
  · exact absurd rfl (h _)
  · rfl

theorem read_tyArgs1 {us : List Tok} {t : Ty} (h : Readable .ty c us t) :
    Readable .tyArgs c (.op .lt :: us ++ [.op .gt]) [t] := by
  refine ⟨Or.inr ⟨_, rfl⟩, fun rest _ => ?_⟩
  have h := h (.op .gt :: rest) (by intro; simp) (by intro; simp)
  obtain ⟨N, h⟩ := h
  refine ⟨N, fun n hn => ?_⟩
  simp [tyArgs, h n hn]

theorem read_tyArgs2 {us vs : List Tok} {t u : Ty} (h : Readable .ty c us t) (h' : Readable .ty c vs u) :
    Readable .tyArgs c (.op .lt :: us ++ .op .comma :: vs ++ [.op .gt]) [t, u] := by
  refine ⟨Or.inr ⟨_, rfl⟩, fun rest _ => ?_⟩
  obtain ⟨N, h⟩ := h (.op .comma :: (vs ++ .op .gt :: rest)) (by intro; simp) (by intro; simp)
  obtain ⟨M, h'⟩ := h' (.op .gt :: rest) (by intro; simp) (by intro; simp)
  refine ⟨N + M, fun n hn => ?_⟩
  simp [tyArgs, h n (by omega), h' n (by omega), want_op]

/-! ## Paths and patterns -/

theorem read_segs0 : Readable .segs c [] [] := by
  intro rest h
  refine Deep.step (f := fun r => segsP r rest) (.const fun r => ?_) fun _ => rfl
  unfold segsP
  split
  · exact absurd rfl (h _)
  · exact absurd rfl (h _)
  · rfl

theorem read_segsMore {n : Nat} {us : List Tok} {ms : List Nat} (h : Readable .segs c us ms) :
    Readable .segs c (.op .colon2 :: .name n :: us) (n :: ms) := by
  intro rest h1
  obtain ⟨N, h⟩ := h rest h1
  refine Deep.step (f := fun r => segsP r (.op .colon2 :: .name n :: (us ++ rest))) ⟨N, fun n hn => ?_⟩ fun _ => rfl
  simp [segsP, h n hn]

theorem read_path {n : Nat} {us : List Tok} {ms : List Nat} (h : Readable .segs c us ms) :
    Readable .path c (.name n :: us) (n, ms) := by
  intro rest h1
  obtain ⟨N, h⟩ := h rest h1
  refine ⟨N, fun n hn => ?_⟩
  simp [path, h n hn]

theorem read_pathSelf {n : Nat} {us : List Tok} {ms : List Nat} (hs : c.selfTy = some n) (h : Readable .segs c us ms) :
    Readable .path c (.kw .Self :: us) (n, ms) := by
  intro rest h1
  obtain ⟨N, h⟩ := h rest h1
  refine ⟨N, fun n hn => ?_⟩
  simp [path, hs, h n hn]

/-- A pattern that starts with a name of the crate is read as a path. -/
theorem pat1_path {us : List Tok} {n : Nat} {ms : List Nat} {i : Id} (h : Phrase .path c us (n, ms)) (hi : ident n = some i)
    (r : Rules) (rest : List Tok) : pat1 r c (us ++ rest) =
      (path r c (us ++ rest)).bind fun p => (ident p.1.1).bind fun i =>
        match p.1.2, preludeTy i with
        | [], none => some (.var i, p.2)
        | [], some t => pat1.ctorP r c t i p.2
        | [m], _ => (ident m).bind fun j => pat1.ctorP r c i j p.2
        | _, _ => none := by
  cases h with
  | path h =>
    rw [List.cons_append]
    unfold pat1
    split
    · next he => cases he
    · next he => cases he
    · next he =>
      cases he
      rw [ident_underscore] at hi; cases hi
    · rfl
  | pathSelf h =>
    rw [List.cons_append]
    unfold pat1
    rfl

theorem read_ctorPrelude {us : List Tok} {n : Nat} {i t : Id} (hp : Phrase .path c us (n, []))
    (h : Readable .path c us (n, [])) (hi : ident n = some i) (ht : preludeTy i = some t) :
    Readable .ctor c us (t, i) := by
  intro rest x h1 h2
  obtain ⟨N, h⟩ := h rest h1
  obtain ⟨M, h2⟩ := h2
  refine ⟨N + M, fun n hn => ?_⟩
  show pat1 (rules n) c (us ++ rest) = _
  rw [pat1_path hp hi]
  simp only [h n (by omega), hi, Option.bind_some, ht]
  exact h2 n (by omega)

theorem read_ctor {us : List Tok} {n m : Nat} {i j : Id} (hp : Phrase .path c us (n, [m]))
    (h : Readable .path c us (n, [m])) (hi : ident n = some i) (hj : ident m = some j) :
    Readable .ctor c us (i, j) := by
  intro rest x h1 h2
  obtain ⟨N, h⟩ := h rest h1
  obtain ⟨M, h2⟩ := h2
  refine ⟨N + M, fun n hn => ?_⟩
  show pat1 (rules n) c (us ++ rest) = _
  rw [pat1_path hp hi]
  simp only [h n (by omega), hi, Option.bind_some, hj]
  exact h2 n (by omega)

theorem read_patLit {n : Nat} {s : Option Ty} : Readable .pat1 c [.num n s] (.lit n) := by
  intro rest _ _ h
  refine .const fun r => ?_
  show pat1 r c (.num n s :: rest) = _
  unfold pat1
  split
  · next he => cases he; exact absurd rfl (h _)
  · next he => cases he; rfl
  · next he => cases he
  · next h1 h2 _ => exact absurd rfl (h2 _ _ _)

theorem read_patVar {us : List Tok} {n : Nat} {i : Id} (hp : Phrase .path c us (n, []))
    (h : Readable .path c us (n, [])) (hi : ident n = some i) (ht : preludeTy i = none) :
    Readable .pat1 c us (.var i) := by
  intro rest h1 _ _
  obtain ⟨N, h⟩ := h rest h1
  refine ⟨N, fun n hn => ?_⟩
  show pat1 (rules n) c (us ++ rest) = _
  rw [pat1_path hp hi]
  simp only [h n (by omega), hi, Option.bind_some, ht]

theorem read_patCtor {us : List Tok} {t v : Id} (h : Readable .ctor c us (t, v)) :
    Readable .pat1 c us (.ctor t v) := by
  intro rest h1 h2 _
  refine h rest _ h1 (.const fun r => ?_)
  unfold pat1.ctorP
  split
  · exact absurd rfl (h2 _)
  · rfl

theorem read_patCtor1 {us vs ws : List Tok} {t v : Id} {p : Pat} (h : Readable .ctor c us (t, v))
    (hp : Readable .pat c vs p) (hw : OptComma ws) :
    Readable .pat1 c (us ++ .op .lparen :: vs ++ ws ++ [.op .rparen]) (.ctor1 t v p) := by
  intro rest _ _ _
  have := h (.op .lparen :: (vs ++ (ws ++ .op .rparen :: rest))) (.ctor1 t v p, rest) (by intro; simp) (by
    obtain ⟨N, hp⟩ := hp (ws ++ .op .rparen :: rest) (by rcases hw with rfl | rfl <;> intro <;> simp)
      (by rcases hw with rfl | rfl <;> intro <;> simp) (by rcases hw with rfl | rfl <;> intro <;> simp)
      (by rcases hw with rfl | rfl <;> intro <;> simp)
    refine ⟨N, fun n hn => ?_⟩
    show pat1.ctorP (rules n) c t v _ = _
    simp only [pat1.ctorP, hp n hn, Option.bind_eq_bind, Option.bind_some]
    rcases hw with rfl | rfl <;> rfl)
  refine this.congr fun r => ?_
  simp

theorem pat_eat {us : List Tok} {p : Pat} {bs : List Tok} (hb : OptBar bs) (hp : Phrase .pat1 c us p) (rest : List Tok) :
    (eat .bar (bs ++ us ++ rest)).2 = us ++ rest := by
  rcases hb with rfl | rfl
  · obtain ⟨t, ts, rfl, ht⟩ := phrase_first hp _ rfl
    have : want .bar (t :: (ts ++ rest)) = none := want_other fun e => by subst e; cases ht
    simp [eat, this]
  · rfl

theorem read_pat {bs us : List Tok} {p : Pat} (hb : OptBar bs) (hp : Phrase .pat1 c us p) (h : Readable .pat1 c us p) :
    Readable .pat c (bs ++ us) p := by
  intro rest h1 h2 h3 h4
  obtain ⟨N, h⟩ := h rest h1 h2 h3
  refine Deep.step (f := fun r => patP r c (bs ++ us ++ rest)) ⟨N, fun n hn => ?_⟩ fun _ => rfl
  unfold patP
  simp only [pat_eat hb hp, h n hn, Option.bind_eq_bind, Option.bind_some]
  split
  · exact absurd rfl (h4 _)
  · rfl

theorem read_patOr {bs us vs : List Tok} {p q : Pat} (hb : OptBar bs) (hp : Phrase .pat1 c us p)
    (h : Readable .pat1 c us p) (hq : Readable .pat c vs q) :
    Readable .pat c (bs ++ us ++ .op .bar :: vs) (.or p q) := by
  intro rest h1 h2 h3 h4
  obtain ⟨N, h⟩ := h (.op .bar :: (vs ++ rest)) (by intro; simp) (by intro; simp) (by intro; simp)
  obtain ⟨M, hq⟩ := hq rest h1 h2 h3 h4
  refine Deep.step (f := fun r => patP r c (bs ++ us ++ .op .bar :: (vs ++ rest))) ⟨N + M, fun n hn => ?_⟩
    fun _ => by simp only [List.append_assoc, List.cons_append]; rfl
  unfold patP
  simp only [pat_eat hb hp, h n (by omega), hq n (by omega), Option.bind_eq_bind, Option.bind_some]

/-! ## Expressions -/

theorem more_ends {l : Nat} (hl : l ≤ 5) (e : Expr) {rest : List Tok} (h : Ends c l rest) :
    Deep (fun r => more r c l e rest) (e, rest) := by
  obtain rfl | rfl | rfl | rfl | rfl | rfl : l = 0 ∨ l = 1 ∨ l = 2 ∨ l = 3 ∨ l = 4 ∨ l = 5 := by omega
  case inr.inr.inr.inr.inr =>
    exact Deep.step (f := fun r => castP r c e rest) (.const fun r => cast_ends r e h) fun _ => rfl
  all_goals exact Deep.step (f := fun r => binP r c _ e rest) (.const fun r => bin_ends r e h) fun _ => rfl

/-- An expression of this strength, all of it. -/
theorem expr_all {l : Nat} {us : List Tok} {e : Expr} (h : Readable (.expr l) c us e) {rest : List Tok} (hr : Ends c l rest) :
    Deep (fun r => r.expr c l (us ++ rest)) (e, rest) :=
  h.2 rest _ (hr.mono (by omega)) (more_ends h.1 e hr)

theorem read_return {us : List Tok} {e : Expr} (h : Readable .whole c us e) :
    Readable .whole c (.kw .return :: us) (.ret e) := by
  intro rest hr
  obtain ⟨N, h⟩ := h rest hr
  refine Deep.step (f := fun r => exprP r c 0 (.kw .return :: (us ++ rest))) ⟨N, fun n hn => ?_⟩ fun _ => rfl
  simp [exprP, h n hn]

theorem read_whole {us : List Tok} {e : Expr} (h : Readable (.expr 0) c us e) : Readable .whole c us e :=
  fun _ hr => expr_all h hr

theorem exprP_low (r : Rules) {l : Nat} (hl : l ≤ 4) {t : Tok} {ts : List Tok} (ht : firstUnary t = true) :
    exprP r c l (t :: ts) = (r.expr c (l + 1) (t :: ts)).bind fun p => r.bin c l p.1 p.2 := by
  unfold exprP
  split
  · next he => cases he; cases ht
  · omega
  · rfl

theorem more_low {l : Nat} (hl : l ≤ 4) : more r c l = r.bin c l := by
  obtain rfl | rfl | rfl | rfl | rfl : l = 0 ∨ l = 1 ∨ l = 2 ∨ l = 3 ∨ l = 4 := by omega
  all_goals rfl

theorem read_up {l : Nat} {us : List Tok} {e : Expr} (hl : l ≤ 4) (hp : Phrase (.expr (l + 1)) c us e)
    (h : Readable (.expr (l + 1)) c us e) : Readable (.expr l) c us e := by
  refine ⟨by omega, fun rest x hr hx => ?_⟩
  obtain ⟨N, h⟩ := expr_all h hr
  obtain ⟨M, hx⟩ := hx
  obtain ⟨t, ts, rfl, ht⟩ := phrase_first hp _ rfl
  refine Deep.step (f := fun r => exprP r c l (t :: (ts ++ rest))) ⟨N + M, fun n hn => ?_⟩ fun _ => rfl
  have h := h n (by omega)
  have hx := hx n (by omega)
  simp only [List.cons_append, more_low hl] at h hx
  simp only [exprP_low _ hl ht, h, Option.bind_some, hx]

theorem strength_le (o : BinOp) : o.strength ≤ 4 := by cases o <;> decide

theorem read_bin {us vs : List Tok} {a b : Expr} (o : BinOp) (ha : Readable (.expr o.strength) c us a)
    (hb : Readable (.expr (o.strength + 1)) c vs b) :
    Readable (.expr o.strength) c (us ++ .op o.op :: vs) (.bin o a b) := by
  have hl := strength_le o
  refine ⟨by omega, fun rest x hr hx => ?_⟩
  obtain ⟨N, hb⟩ := expr_all hb hr
  obtain ⟨M, hx⟩ := hx
  have := ha.2 (.op o.op :: (vs ++ rest)) x (ends_op o) (by
    refine Deep.step (f := fun r => binP r c o.strength a (.op o.op :: (vs ++ rest))) ⟨N + M, fun n hn => ?_⟩
      fun n => by simp only [more_low hl]; rfl
    have hb := hb n (by omega)
    have hx := hx n (by omega)
    simp only [more_low hl] at hx
    simp only [binP, infix_op, Nat.beq_refl, hb, hx, Option.bind_eq_bind, Option.bind_some])
  refine this.congr fun r => ?_
  simp only [List.append_assoc, List.cons_append]

theorem read_cast {us vs : List Tok} {e : Expr} {t : Ty} (h : Readable (.expr 5) c us e) (ht : Readable .ty c vs t) :
    Readable (.expr 5) c (us ++ .kw .as :: vs) (.cast e t) := by
  refine ⟨by omega, fun rest x hr hx => ?_⟩
  obtain ⟨N, ht⟩ := ht rest (hr.not (k := 8) rfl (by omega)) (hr.not (k := 8) rfl (by omega))
  obtain ⟨M, hx⟩ := hx
  have := h.2 (.kw .as :: (vs ++ rest)) x (by intro u us e k hk; cases e; cases hk; omega) (by
    refine Deep.step (f := fun r => castP r c e (.kw .as :: (vs ++ rest))) ⟨N + M, fun n hn => ?_⟩ fun n => rfl
    have ht := ht n (by omega)
    have hx := hx n (by omega)
    simp only [more] at hx
    simp only [castP, ht, hx, Option.bind_eq_bind, Option.bind_some])
  refine this.congr fun r => ?_
  simp only [List.append_assoc, List.cons_append]

theorem read_unary {us : List Tok} {e : Expr} (h : Readable .unary c us e) : Readable (.expr 5) c us e := by
  refine ⟨by omega, fun rest x hr hx => ?_⟩
  obtain ⟨N, h⟩ := h rest (hr.mono (by omega))
  obtain ⟨M, hx⟩ := hx
  refine Deep.step (f := fun r => exprP r c 5 (us ++ rest)) ⟨N + M, fun n hn => ?_⟩ fun _ => rfl
  have h := h n (by omega)
  have hx := hx n (by omega)
  simp only [more] at hx
  simp only [exprP, h, hx, Option.bind_eq_bind, Option.bind_some]

theorem read_ref {us : List Tok} {e : Expr} (h : Readable .unary c us e) : Readable .unary c (.op .amp :: us) e :=
  fun rest hr => (h rest hr).step fun _ => rfl

theorem read_deref {us : List Tok} {e : Expr} (h : Readable .unary c us e) : Readable .unary c (.op .star :: us) e :=
  fun rest hr => (h rest hr).step fun _ => rfl

theorem read_neg {us : List Tok} {e : Expr} (h : Readable .unary c us e) :
    Readable .unary c (.op .minus :: us) (.neg e) := by
  intro rest hr
  obtain ⟨N, h⟩ := h rest hr
  refine Deep.step (f := fun r => unaryP r c (.op .minus :: (us ++ rest))) ⟨N, fun n hn => ?_⟩ fun _ => rfl
  simp [unaryP, h n hn]

theorem read_post {us : List Tok} {e : Expr} (h : Readable .post c us e) : Readable .unary c us e :=
  fun rest hr => h rest _ (hr.mono (by omega))
    (Deep.step (f := fun r => postP r c e rest) (.const fun r => post_ends r e hr) fun _ => rfl)

theorem read_prim {us : List Tok} {e : Expr} (hp : Phrase .prim c us e) (h : Readable .prim c us e) :
    Readable .post c us e := by
  intro rest x hr hx
  obtain ⟨N, h⟩ := h rest (hr.not (k := 8) rfl (by omega)) fun _ => hr
  obtain ⟨M, hx⟩ := hx
  obtain ⟨t, ts, rfl, ht⟩ := phrase_first hp _ rfl
  refine Deep.step (f := fun r => unaryP r c (t :: (ts ++ rest))) ⟨N + M, fun n hn => ?_⟩ fun _ => rfl
  have h := h n (by omega)
  have hx := hx n (by omega)
  simp only [List.cons_append] at h hx
  unfold unaryP
  split
  · next he => cases he; cases ht
  · next he => cases he; cases ht
  · next he => cases he; cases ht
  · simp only [h, hx, Option.bind_eq_bind, Option.bind_some]

/-- Something behind an operand. -/
theorem read_more {us vs : List Tok} {e e' : Expr} (h : Readable .post c us e)
    (hv : ∃ t ts, vs = t :: ts ∧ goesOn c t = some 7)
    (hp : ∀ rest x, Ends c 8 rest → Deep (fun r => r.post c e' rest) x → Deep (fun r => postP r c e (vs ++ rest)) x) :
    Readable .post c (us ++ vs) e' := by
  intro rest x hr hx
  have := h (vs ++ rest) x (by
    obtain ⟨t, ts, rfl, ht⟩ := hv
    intro u us e k hk
    cases e
    rw [ht] at hk; cases hk; omega) (Deep.step (hp rest x hr hx) fun _ => rfl)
  refine this.congr fun r => ?_
  simp only [List.append_assoc]

theorem read_question {us : List Tok} {e : Expr} (h : Readable .post c us e) :
    Readable .post c (us ++ [.op .quest]) (.question e) :=
  read_more h ⟨_, _, rfl, rfl⟩ fun _ _ _ hx => hx.congr fun _ => rfl

theorem read_unwrap {us : List Tok} {e : Expr} (h : Readable .post c us e) :
    Readable .post c (us ++ [.op .dot, .kw .unwrap, .op .lparen, .op .rparen]) (.unwrap e) :=
  read_more h ⟨_, _, rfl, rfl⟩ fun _ _ _ hx => hx.congr fun _ => rfl

theorem read_expect {us : List Tok} {e : Expr} {s : List Nat} (h : Readable .post c us e) :
    Readable .post c (us ++ [.op .dot, .kw .expect, .op .lparen, .str s, .op .rparen]) (.unwrap e) :=
  read_more h ⟨_, _, rfl, rfl⟩ fun _ _ _ hx => hx.congr fun _ => rfl

theorem read_into {us : List Tok} {e : Expr} (h : Readable .post c us e) :
    Readable .post c (us ++ [.op .dot, .kw .into, .op .lparen, .op .rparen]) (.into e) :=
  read_more h ⟨_, _, rfl, rfl⟩ fun _ _ _ hx => hx.congr fun _ => rfl

theorem read_unwrapOrElse {us vs : List Tok} {e b : Expr} {x : Nat} {i : Id} (h : Readable .post c us e)
    (hi : ident x = some i) (hb : Readable .whole c.inside vs b) :
    Readable .post c (us ++ [.op .dot, .kw .unwrap_or_else, .op .lparen, .op .bar, .name x, .op .bar] ++ vs ++
      [.op .rparen]) (.orElse e i b) := by
  rw [List.append_assoc, List.append_assoc]
  refine read_more h ⟨_, _, rfl, rfl⟩ fun rest y _ hx => ?_
  obtain ⟨N, hb⟩ := hb (.op .rparen :: rest) (ends_of rfl)
  obtain ⟨M, hx⟩ := hx
  refine ⟨N + M, fun n hn => ?_⟩
  have hb := hb n (by omega)
  have hx := hx n (by omega)
  simp only [Ctx.inside] at hb
  simp [postP, hi, hb, want_op, hx]

theorem read_pow {us vs : List Tok} {e a : Expr} (h : Readable .post c us e)
    (ha : Readable (.args .rparen) c.inside vs [a]) :
    Readable .post c (us ++ [.op .dot, .kw .pow, .op .lparen] ++ vs) (.pow e a) := by
  rw [List.append_assoc]
  refine read_more h ⟨_, _, rfl, rfl⟩ fun rest y _ hx => ?_
  obtain ⟨N, ha⟩ := ha (Or.inl rfl) rest
  obtain ⟨M, hx⟩ := hx
  refine ⟨N + M, fun n hn => ?_⟩
  have ha := ha n (by omega)
  have hx := hx n (by omega)
  simp only [Ctx.inside] at ha
  simp [postP, ha, hx]

theorem read_method {us vs : List Tok} {e : Expr} {f : Nat} {i : Id} {as : List Expr} (h : Readable .post c us e)
    (hi : ident f = some i) (ha : Readable (.args .rparen) c.inside vs as) :
    Readable .post c (us ++ [.op .dot, .name f, .op .lparen] ++ vs) (.method e i (exprs as)) := by
  rw [List.append_assoc]
  refine read_more h ⟨_, _, rfl, rfl⟩ fun rest y _ hx => ?_
  obtain ⟨N, ha⟩ := ha (Or.inl rfl) rest
  obtain ⟨M, hx⟩ := hx
  refine ⟨N + M, fun n hn => ?_⟩
  have ha := ha n (by omega)
  have hx := hx n (by omega)
  simp only [Ctx.inside] at ha
  simp [postP, hi, ha, hx]

theorem read_field {us : List Tok} {e : Expr} {x : Nat} {i : Id} (h : Readable .post c us e) (hi : ident x = some i) :
    Readable .post c (us ++ [.op .dot, .name x]) (.field e i) := by
  refine read_more h ⟨_, _, rfl, rfl⟩ fun rest y hr hx => ?_
  obtain ⟨M, hx⟩ := hx
  refine ⟨M, fun n hn => ?_⟩
  have hx := hx n hn
  have hl : StartsNot (.op .lparen) rest := hr.not (k := 8) rfl (by omega)
  show postP (rules n) c e (.op .dot :: .name x :: rest) = _
  unfold postP
  split
  case h_8 he => cases he; simp [hi, hx]
  case h_7 he => cases he; exact absurd rfl (hl _)
  case h_9 _ _ _ _ _ _ _ h8 => exact absurd rfl (h8 _ _)
  all_goals next he => cases he

/-! ## Operands -/

theorem read_paren {us : List Tok} {e : Expr} (h : Readable .whole c.inside us e) :
    Readable .prim c (.op .lparen :: us ++ [.op .rparen]) e := by
  intro rest _ _
  obtain ⟨N, h⟩ := h (.op .rparen :: rest) (ends_of rfl)
  refine ⟨N, fun n hn => ?_⟩
  have h := h n hn
  simp only [Ctx.inside] at h
  simp [primary, h, want_op]

theorem read_array {us : List Tok} {es : List Expr} (h : Readable (.args .rbrack) c.inside us es) :
    Readable .prim c (.op .lbrack :: us) (.array (exprs es)) := by
  intro rest _ _
  obtain ⟨N, h⟩ := h (Or.inr rfl) rest
  refine ⟨N, fun n hn => ?_⟩
  have h := h n hn
  simp only [Ctx.inside] at h
  simp [primary, h]

theorem block_brace {us : List Tok} {e : Expr} (h : Phrase .block c us e) : ∃ vs, us = .op .lbrace :: vs := by
  cases h; exact ⟨_, rfl⟩

theorem read_blockExpr {us : List Tok} {e : Expr} (hp : Phrase .block c us e) (h : Readable .block c us e) :
    Readable .prim c us e := by
  intro rest _ _
  obtain ⟨vs, rfl⟩ := block_brace hp
  exact (h rest).congr fun _ => rfl

theorem ends_head {us : List Tok} {e : Expr} (hp : Phrase .block c us e) (rest : List Tok) :
    Ends c.head 0 (us ++ rest) := by
  obtain ⟨vs, rfl⟩ := block_brace hp
  exact ends_of rfl

theorem read_ifElse {us vs ws : List Tok} {b e f : Expr} (hb : Readable .whole c.head us b)
    (hp : Phrase .block c vs e) (he : Readable .block c vs e) (hf : Readable .block c ws f) :
    Readable .prim c (.kw .if :: us ++ vs ++ .kw .else :: ws) (.ite b e f) := by
  intro rest _ _
  obtain ⟨N, hb⟩ := hb (vs ++ .kw .else :: (ws ++ rest)) (ends_head hp _)
  obtain ⟨M, he⟩ := he (.kw .else :: (ws ++ rest))
  obtain ⟨K, hf⟩ := hf rest
  refine ⟨N + M + K, fun n hn => ?_⟩
  have hb := hb n (by omega)
  have he := he n (by omega)
  have hf := hf n (by omega)
  simp only [Ctx.head] at hb
  simp [primary, hb, he, hf]

theorem read_ifThen {us vs : List Tok} {b e : Expr} (hb : Readable .whole c.head us b)
    (hp : Phrase .block c vs e) (he : Readable .block c vs e) :
    Readable .prim c (.kw .if :: us ++ vs) (.ite b e .unit) := by
  intro rest hr _
  obtain ⟨N, hb⟩ := hb (vs ++ rest) (ends_head hp _)
  obtain ⟨M, he⟩ := he rest
  refine ⟨N + M, fun n hn => ?_⟩
  have hb := hb n (by omega)
  have he := he n (by omega)
  simp only [Ctx.head] at hb
  simp only [primary, List.cons_append, List.append_assoc, hb, he, Option.bind_eq_bind, Option.bind_some]
  split
  · exact absurd rfl (hr _)
  · rfl

theorem read_match {us vs : List Tok} {e : Expr} {as : Arms} (he : Readable .whole c.head us e)
    (ha : Readable .arms c vs as) : Readable .prim c (.kw .match :: us ++ .op .lbrace :: vs) (.match_ e as) := by
  intro rest hr _
  obtain ⟨N, he⟩ := he (.op .lbrace :: (vs ++ rest)) (ends_of rfl)
  obtain ⟨M, ha⟩ := ha rest
  refine ⟨N + M, fun n hn => ?_⟩
  have he := he n (by omega)
  have ha := ha n (by omega)
  simp only [Ctx.head] at he
  simp [primary, he, ha, want_op]

theorem read_unreachable {us : List Tok} (h : Closes .lparen .rparen 1 us) :
    Readable .prim c (.kw .unreachable :: .op .bang :: .op .lparen :: us) .unreachable := by
  intro rest _ _
  refine .const fun r => ?_
  simp [primary, skipParens_closes (d := 0) rest h]

theorem read_panic {us : List Tok} (h : Closes .lparen .rparen 1 us) :
    Readable .prim c (.kw .panic :: .op .bang :: .op .lparen :: us) .unreachable := by
  intro rest _ _
  refine .const fun r => ?_
  simp [primary, skipParens_closes (d := 0) rest h]

theorem read_matches {us vs : List Tok} {e : Expr} {p : Pat} (he : Readable .whole c.inside us e)
    (hp : Readable .pat c vs p) :
    Readable .prim c (.kw .matches :: .op .bang :: .op .lparen :: us ++ .op .comma :: vs ++ [.op .rparen])
      (.matches_ e p) := by
  intro rest _ _
  obtain ⟨N, he⟩ := he (.op .comma :: (vs ++ .op .rparen :: rest)) (ends_of rfl)
  obtain ⟨M, hp⟩ := hp (.op .rparen :: rest) (by intro; simp) (by intro; simp) (by intro; simp) (by intro; simp)
  refine ⟨N + M, fun n hn => ?_⟩
  have he := he n (by omega)
  have hp := hp n (by omega)
  simp only [Ctx.inside] at he
  simp [primary, he, hp, want_op]

theorem read_write {s : List Nat} {us : List Tok} {es : List Expr} {ss : List Seg} {ps : Pieces}
    (h : Readable (.args .rparen) c.inside us es) (hs : cut [] false s = some ss) (hp : pieces ss es = some ps) :
    Readable .prim c (.kw .write :: .op .bang :: .op .lparen :: .kw .f :: .op .comma :: .str s :: .op .comma :: us)
      (.write ps) := by
  intro rest _ _
  obtain ⟨N, h⟩ := h (Or.inl rfl) rest
  refine ⟨N, fun n hn => ?_⟩
  have h := h n hn
  simp only [Ctx.inside] at h
  simp [primary, sep_comma, h, hs, hp]

theorem read_args0 {o : Op} : Readable (.args o) c [.op o] [] := by
  intro _ rest
  refine Deep.step (f := fun r => argsP r c o (.op o :: rest)) (.const fun r => ?_) fun _ => rfl
  simp [argsP, want_op]

theorem read_write0 {s : List Nat} {ss : List Seg} {ps : Pieces} (hs : cut [] false s = some ss)
    (hp : pieces ss [] = some ps) :
    Readable .prim c [.kw .write, .op .bang, .op .lparen, .kw .f, .op .comma, .str s, .op .rparen] (.write ps) := by
  intro rest _ _
  obtain ⟨N, h⟩ := read_args0 (c := c.inside) (Or.inl rfl) rest
  refine ⟨N, fun n hn => ?_⟩
  have h := h n hn
  simp only [Ctx.inside, List.cons_append, List.nil_append] at h
  simp [primary, sep_close, h, hs, hp]

theorem primary_path {us : List Tok} {p : Nat × List Nat} (h : Phrase .path c us p) (r : Rules) (rest : List Tok) :
    primary r c (us ++ rest) = (path r c (us ++ rest)).bind fun p => pathExpr r c p.1.1 p.1.2 p.2 := by
  cases h with
  | path h => rfl
  | pathSelf h => rfl

theorem path_not_blocky {us : List Tok} {p : Nat × List Nat} (h : Phrase .path c us p) : ¬ Blocky us := by
  cases h <;> rintro ⟨vs, h | h | h⟩ <;> cases h

theorem read_call {us vs : List Tok} {n : Nat} {ms : List Nat} {as : List Expr} {e : Expr}
    (hp : Phrase .path c us (n, ms)) (h : Readable .path c us (n, ms)) (ha : Readable (.args .rparen) c.inside vs as)
    (he : callOf c n ms as = some e) : Readable .prim c (us ++ .op .lparen :: vs) e := by
  intro rest _ _
  obtain ⟨N, h⟩ := h (.op .lparen :: (vs ++ rest)) (by intro; simp)
  obtain ⟨M, ha⟩ := ha (Or.inl rfl) rest
  refine ⟨N + M, fun n hn => ?_⟩
  have h := h n (by omega)
  have ha := ha n (by omega)
  simp only [Ctx.inside] at ha
  simp only [List.append_assoc, List.cons_append, primary_path hp, h, Option.bind_some]
  simp [pathExpr, ha, he]

theorem read_struct {us vs : List Tok} {n : Nat} {i : Id} {fs : Fields} (hs : c.structOk = true)
    (hp : Phrase .path c us (n, [])) (h : Readable .path c us (n, [])) (hi : ident n = some i)
    (hf : Readable .fields c vs fs) : Readable .prim c (us ++ .op .lbrace :: vs) (.struct i fs) := by
  intro rest _ _
  obtain ⟨N, h⟩ := h (.op .lbrace :: (vs ++ rest)) (by intro; simp)
  obtain ⟨M, hf⟩ := hf rest
  refine ⟨N + M, fun n hn => ?_⟩
  have h := h n (by omega)
  have hf := hf n (by omega)
  simp only [List.append_assoc, List.cons_append, primary_path hp, h, Option.bind_some]
  simp [pathExpr, hi, hs, hf]

/-- A name that is neither called nor starts a struct expression. -/
theorem pathExpr_name (r : Rules) {n : Nat} {i : Id} (hi : ident n = some i) {rest : List Tok} (hr : Ends c 8 rest) :
    pathExpr r c n [] rest = match (generalizing := false) i with
      | .None => some (.variant .Option .None, rest)
      | i => some (.var i, rest) := by
  unfold pathExpr
  split
  · exact absurd rfl (hr.not (k := 8) rfl (by omega) _)
  · simp only [hi, Option.bind_eq_bind, Option.bind_some]
    split
    · next hs _ =>
      exact absurd rfl (hr.not (t := .op .lbrace) (k := 8) (by simp [goesOn, hs]) (by omega) _)
    · rfl
    · next he _ => cases he
    · simp_all

theorem read_none {us : List Tok} {n : Nat} (hp : Phrase .path c us (n, [])) (h : Readable .path c us (n, []))
    (hi : ident n = some .None) : Readable .prim c us (.variant .Option .None) := by
  intro rest _ hr
  have hr := hr (path_not_blocky hp)
  obtain ⟨N, h⟩ := h rest (hr.not (k := 8) rfl (by omega))
  refine ⟨N, fun n hn => ?_⟩
  simp only [primary_path hp, h n hn, Option.bind_some, pathExpr_name _ hi hr]

theorem read_var {us : List Tok} {n : Nat} {i : Id} (hp : Phrase .path c us (n, [])) (h : Readable .path c us (n, []))
    (hi : ident n = some i) (hn : i ≠ .None) : Readable .prim c us (.var i) := by
  intro rest _ hr
  have hr := hr (path_not_blocky hp)
  obtain ⟨N, h⟩ := h rest (hr.not (k := 8) rfl (by omega))
  refine ⟨N, fun n hn => ?_⟩
  simp only [primary_path hp, h n hn, Option.bind_some, pathExpr_name _ hi hr]

theorem read_variant {us : List Tok} {n m : Nat} {i j : Id} (hp : Phrase .path c us (n, [m]))
    (h : Readable .path c us (n, [m])) (hi : ident n = some i) (hj : ident m = some j) :
    Readable .prim c us (.variant i j) := by
  intro rest _ hr
  have hr := hr (path_not_blocky hp)
  obtain ⟨N, h⟩ := h rest (hr.not (k := 8) rfl (by omega))
  refine ⟨N, fun n hn => ?_⟩
  simp only [primary_path hp, h n hn, Option.bind_some]
  unfold pathExpr
  split
  · exact absurd rfl (hr.not (k := 8) rfl (by omega) _)
  · simp only [hi, hj, Option.bind_eq_bind, Option.bind_some]

/-! ## Lists -/

/-- What does not start an expression ends one. -/
theorem ends_close {o : Op} {l : Nat} (ho : o = .rparen ∨ o = .rbrack) (rest : List Tok) : Ends c l (.op o :: rest) := by
  rcases ho with rfl | rfl <;> exact ends_of rfl

theorem want_close {o : Op} (ho : o = .rparen ∨ o = .rbrack) {us : List Tok} {e : Expr} (h : Phrase .whole c us e)
    (rest : List Tok) : want o (us ++ rest) = none := by
  obtain ⟨t, ts, rfl, ht⟩ := phrase_first h _ rfl
  refine want_other ?_
  rintro rfl
  rcases ho with rfl | rfl <;> cases ht

theorem read_args1 {o : Op} {us : List Tok} {e : Expr} (hp : Phrase .whole c us e) (h : Readable .whole c us e) :
    Readable (.args o) c (us ++ [.op o]) [e] := by
  intro ho rest
  obtain ⟨N, h⟩ := h (.op o :: rest) (ends_close ho _)
  refine Deep.step (f := fun r => argsP r c o (us ++ .op o :: rest)) ⟨N, fun n hn => ?_⟩ fun _ => by
    simp only [List.append_assoc, List.cons_append, List.nil_append]; rfl
  have h := h n hn
  simp only [argsP, want_close ho hp, h, Option.bind_eq_bind, Option.bind_some]
  rcases ho with rfl | rfl <;> rfl

theorem read_argsMore {o : Op} {us vs : List Tok} {e : Expr} {es : List Expr} (hp : Phrase .whole c us e)
    (h : Readable .whole c us e) (hs : Readable (.args o) c vs es) :
    Readable (.args o) c (us ++ .op .comma :: vs) (e :: es) := by
  intro ho rest
  obtain ⟨N, h⟩ := h (.op .comma :: (vs ++ rest)) (ends_of rfl)
  obtain ⟨M, hs⟩ := hs ho rest
  refine Deep.step (f := fun r => argsP r c o (us ++ .op .comma :: (vs ++ rest))) ⟨N + M, fun n hn => ?_⟩ fun _ => by
    simp only [List.append_assoc, List.cons_append]; rfl
  have h := h n (by omega)
  have hs := hs n (by omega)
  simp only [argsP, want_close ho hp, h, hs, Option.bind_eq_bind, Option.bind_some]

theorem read_block {us : List Tok} {ss : Stmts} (h : Readable .stmts c.inside us ss) :
    Readable .block c (.op .lbrace :: us) (blockOf ss) := by
  intro rest
  obtain ⟨N, h⟩ := h rest
  refine ⟨N, fun n hn => ?_⟩
  have h := h n hn
  simp only [Ctx.inside] at h
  simp [blockP, want_op, h]

theorem arms_first {us : List Tok} {as : Arms} (h : Phrase .arms c us as) :
    ∃ t ts, us = t :: ts ∧ (t = .op .rbrace ∨ firstPat t = true) := by
  cases h with
  | arms0 => exact ⟨_, _, rfl, Or.inl rfl⟩
  | armBlock h | armLast h | armMore h =>
    obtain ⟨t, ts, rfl, ht⟩ := phrase_first h _ rfl
    exact ⟨t, _, rfl, Or.inr ht⟩

theorem blockFirst_blocky {us : List Tok} (h : Blocky us) (rest : List Tok) : blockFirst (us ++ rest) = true := by
  obtain ⟨vs, rfl | rfl | rfl⟩ := h <;> rfl

theorem blockFirst_not {us : List Tok} {e : Expr} (hp : Phrase .whole c us e) (h : ¬ Blocky us) (rest : List Tok) :
    blockFirst (us ++ rest) = false := by
  cases hb : blockFirst (us ++ rest) with
  | false => rfl
  | true => exact absurd (blocky_first (phrase_ne_nil hp (by simp) (by simp) (by simp)) hb) h

theorem read_arms0 : Readable .arms c [.op .rbrace] .nil :=
  fun rest => Deep.step (f := fun r => armsP r c (.op .rbrace :: rest)) (.const fun _ => rfl) fun _ => rfl

theorem armsP_pat (r : Rules) {us : List Tok} {p : Pat} (hp : Phrase .pat c us p) (rest : List Tok) :
    armsP r c (us ++ rest) = (r.pat c (us ++ rest)).bind fun p => (want .fatArrow p.2).bind fun ts =>
      (armP r c ts).bind fun e => (r.arms c e.2).bind fun as => some (.cons p.1 e.1 as.1, as.2) := by
  obtain ⟨t, ts, rfl, ht⟩ := phrase_first hp _ rfl
  rw [List.cons_append]
  unfold armsP
  split
  · next he => cases he; cases ht
  · rfl

theorem read_armBlock {us vs bs ws : List Tok} {p : Pat} {e : Expr} {as : Arms} (hp : Phrase .pat c us p)
    (hq : Readable .pat c us p) (hb : Blocky vs) (he : Readable .prim c.inside vs e) (hs : OptComma bs)
    (ha : Phrase .arms c ws as) (hr : Readable .arms c ws as) :
    Readable .arms c (us ++ .op .fatArrow :: vs ++ bs ++ ws) (.cons p e as) := by
  intro rest
  obtain ⟨t, ts, rfl, ht⟩ := arms_first ha
  have hc : t ≠ .op .comma := by rintro rfl; rcases ht with h | h <;> cases h
  have hel : t ≠ .kw .else := by rintro rfl; rcases ht with h | h <;> cases h
  obtain ⟨N, hq⟩ := hq (.op .fatArrow :: (vs ++ (bs ++ (t :: ts ++ rest)))) (by intro; simp) (by intro; simp)
    (by intro; simp) (by intro; simp)
  obtain ⟨M, he⟩ := he (bs ++ (t :: ts ++ rest)) (by
    rcases hs with rfl | rfl
    · intro us h; cases h; exact hel rfl
    · intro us h; cases h) (fun h => absurd hb h)
  obtain ⟨K, hr⟩ := hr rest
  refine Deep.step (f := fun r => armsP r c (us ++ .op .fatArrow :: (vs ++ (bs ++ (t :: ts ++ rest)))))
    ⟨N + M + K, fun n hn => ?_⟩ fun _ => by simp only [List.append_assoc, List.cons_append]; rfl
  have hq := hq n (by omega)
  have he := he n (by omega)
  have hr := hr n (by omega)
  have hat : (eat .comma (bs ++ (t :: ts ++ rest))).2 = t :: ts ++ rest := by
    rcases hs with rfl | rfl
    · have : want .comma (t :: (ts ++ rest)) = none := want_other hc
      simp [eat, this]
    · rfl
  simp only [Ctx.inside] at he
  simp only [armsP_pat _ hp, hq, want_op, armP, blockFirst_blocky hb, he, hat, hr, Option.bind_eq_bind,
    Option.bind_some]

theorem read_armLast {us vs : List Tok} {p : Pat} {e : Expr} (hp : Phrase .pat c us p) (hq : Readable .pat c us p)
    (hb : ¬ Blocky vs) (hw : Phrase .whole c.inside vs e) (he : Readable .whole c.inside vs e) :
    Readable .arms c (us ++ .op .fatArrow :: vs ++ [.op .rbrace]) (.cons p e .nil) := by
  intro rest
  obtain ⟨N, hq⟩ := hq (.op .fatArrow :: (vs ++ (.op .rbrace :: rest))) (by intro; simp) (by intro; simp)
    (by intro; simp) (by intro; simp)
  obtain ⟨M, he⟩ := he (.op .rbrace :: rest) (ends_of rfl)
  obtain ⟨K, hr⟩ := read_arms0 (c := c) rest
  refine Deep.step (f := fun r => armsP r c (us ++ .op .fatArrow :: (vs ++ (.op .rbrace :: rest))))
    ⟨N + M + K, fun n hn => ?_⟩ fun _ => by simp only [List.append_assoc, List.cons_append]; rfl
  have hq := hq n (by omega)
  have he := he n (by omega)
  have hr := hr n (by omega)
  simp only [Ctx.inside] at he
  simp only [List.cons_append, List.nil_append] at hr
  simp only [armsP_pat _ hp, hq, want_op, armP, blockFirst_not hw hb, he, sep_close (o := .rbrace) (by simp), hr,
    Option.bind_eq_bind, Option.bind_some]

theorem read_armMore {us vs ws : List Tok} {p : Pat} {e : Expr} {as : Arms} (hp : Phrase .pat c us p)
    (hq : Readable .pat c us p) (hb : ¬ Blocky vs) (hw : Phrase .whole c.inside vs e)
    (he : Readable .whole c.inside vs e) (hr : Readable .arms c ws as) :
    Readable .arms c (us ++ .op .fatArrow :: vs ++ .op .comma :: ws) (.cons p e as) := by
  intro rest
  obtain ⟨N, hq⟩ := hq (.op .fatArrow :: (vs ++ (.op .comma :: (ws ++ rest)))) (by intro; simp) (by intro; simp)
    (by intro; simp) (by intro; simp)
  obtain ⟨M, he⟩ := he (.op .comma :: (ws ++ rest)) (ends_of rfl)
  obtain ⟨K, hr⟩ := hr rest
  refine Deep.step (f := fun r => armsP r c (us ++ .op .fatArrow :: (vs ++ (.op .comma :: (ws ++ rest)))))
    ⟨N + M + K, fun n hn => ?_⟩ fun _ => by simp only [List.append_assoc, List.cons_append]; rfl
  have hq := hq n (by omega)
  have he := he n (by omega)
  have hr := hr n (by omega)
  simp only [Ctx.inside] at he
  simp only [armsP_pat _ hp, hq, want_op, armP, blockFirst_not hw hb, he, sep_comma, hr, Option.bind_eq_bind,
    Option.bind_some]

theorem read_fields0 : Readable .fields c [.op .rbrace] .nil :=
  fun rest => Deep.step (f := fun r => fieldsP r c (.op .rbrace :: rest)) (.const fun _ => rfl) fun _ => rfl

theorem read_fieldLast {x : Nat} {i : Id} {us : List Tok} {e : Expr} (hi : ident x = some i)
    (h : Readable .whole c.inside us e) :
    Readable .fields c (.name x :: .op .colon :: us ++ [.op .rbrace]) (.cons i e .nil) := by
  intro rest
  obtain ⟨N, h⟩ := h (.op .rbrace :: rest) (ends_of rfl)
  obtain ⟨M, hr⟩ := read_fields0 (c := c) rest
  refine Deep.step (f := fun r => fieldsP r c (.name x :: .op .colon :: (us ++ .op .rbrace :: rest)))
    ⟨N + M, fun n hn => ?_⟩ fun _ => by simp only [List.append_assoc, List.cons_append]; rfl
  have h := h n (by omega)
  have hr := hr n (by omega)
  simp only [Ctx.inside] at h
  simp only [List.cons_append, List.nil_append] at hr
  simp only [fieldsP, identP, hi, want_op, h, hr, sep_close (o := .rbrace) (by simp), Option.bind_eq_bind,
    Option.bind_some]

theorem read_fieldMore {x : Nat} {i : Id} {us vs : List Tok} {e : Expr} {fs : Fields} (hi : ident x = some i)
    (h : Readable .whole c.inside us e) (hr : Readable .fields c vs fs) :
    Readable .fields c (.name x :: .op .colon :: us ++ .op .comma :: vs) (.cons i e fs) := by
  intro rest
  obtain ⟨N, h⟩ := h (.op .comma :: (vs ++ rest)) (ends_of rfl)
  obtain ⟨M, hr⟩ := hr rest
  refine Deep.step (f := fun r => fieldsP r c (.name x :: .op .colon :: (us ++ .op .comma :: (vs ++ rest))))
    ⟨N + M, fun n hn => ?_⟩ fun _ => by simp only [List.append_assoc, List.cons_append]; rfl
  have h := h n (by omega)
  have hr := hr n (by omega)
  simp only [Ctx.inside] at h
  simp only [fieldsP, identP, hi, want_op, h, hr, sep_comma, Option.bind_eq_bind, Option.bind_some]

theorem read_params0 : Readable .params c [.op .bar] [] := by
  intro rest n _
  refine .const fun r => ?_
  cases n <;> rfl

theorem read_paramLast {x : Nat} {i : Id} {us : List Tok} {t : Ty} (hi : ident x = some i) (h : Readable .ty c us t) :
    Readable .params c (.name x :: .op .colon :: us ++ [.op .bar]) [(i, t)] := by
  intro rest n hn
  obtain ⟨n, rfl⟩ : ∃ m, n = m + 1 := ⟨n - 1, by simp at hn; omega⟩
  obtain ⟨N, h⟩ := h (.op .bar :: rest) (by intro; simp) (by intro; simp)
  obtain ⟨M, hr⟩ := read_params0 (c := c) rest n (by simp at hn ⊢; omega)
  refine ⟨N + M, fun m hm => ?_⟩
  have h := h m (by omega)
  have hr := hr m (by omega)
  simp only [List.cons_append, List.nil_append] at hr
  simp only [List.append_assoc, List.cons_append, List.nil_append, closureParams, hi, h, hr,
    sep_close (o := .bar) (by simp), Option.bind_eq_bind, Option.bind_some]

theorem read_paramMore {x : Nat} {i : Id} {us vs : List Tok} {t : Ty} {ps : List (Id × Ty)} (hi : ident x = some i)
    (h : Readable .ty c us t) (hr : Readable .params c vs ps) :
    Readable .params c (.name x :: .op .colon :: us ++ .op .comma :: vs) ((i, t) :: ps) := by
  intro rest n hn
  obtain ⟨n, rfl⟩ : ∃ m, n = m + 1 := ⟨n - 1, by simp at hn; omega⟩
  obtain ⟨N, h⟩ := h (.op .comma :: (vs ++ rest)) (by intro; simp) (by intro; simp)
  obtain ⟨M, hr⟩ := hr rest n (by simp at hn ⊢; omega)
  refine ⟨N + M, fun m hm => ?_⟩
  have h := h m (by omega)
  have hr := hr m (by omega)
  simp only [List.append_assoc, List.cons_append, closureParams, hi, h, hr, sep_comma, Option.bind_eq_bind,
    Option.bind_some]

/-! ## Statements -/

theorem read_annot0 : Readable .annot c [] .other := by
  intro rest _ _ h
  refine .const fun r => ?_
  show annot r c rest = _
  unfold annot
  split
  · exact absurd rfl (h _)
  · rfl

theorem read_sides {us vs : List Tok} {a b : Expr} (ha : Readable .whole c.inside us a)
    (hb : Readable .whole c.inside vs b) :
    Readable .sides c (us ++ .op .comma :: vs ++ [.op .rparen, .op .semi]) (a, b) := by
  intro rest
  obtain ⟨N, ha⟩ := ha (.op .comma :: (vs ++ .op .rparen :: .op .semi :: rest)) (ends_of rfl)
  obtain ⟨M, hb⟩ := hb (.op .rparen :: .op .semi :: rest) (ends_of rfl)
  refine ⟨N + M, fun n hn => ?_⟩
  have ha := ha n (by omega)
  have hb := hb n (by omega)
  simp only [Ctx.inside] at ha hb
  simp [sidesP, ha, hb, want_op]

theorem read_sidesMessage {us vs ws : List Tok} {a b : Expr} (ha : Readable .whole c.inside us a)
    (hb : Readable .whole c.inside vs b) (hw : Closes .lparen .rparen 1 ws) :
    Readable .sides c (us ++ .op .comma :: vs ++ .op .comma :: ws ++ [.op .semi]) (a, b) := by
  intro rest
  obtain ⟨N, ha⟩ := ha (.op .comma :: (vs ++ .op .comma :: (ws ++ .op .semi :: rest))) (ends_of rfl)
  obtain ⟨M, hb⟩ := hb (.op .comma :: (ws ++ .op .semi :: rest)) (ends_of rfl)
  refine ⟨N + M, fun n hn => ?_⟩
  have ha := ha n (by omega)
  have hb := hb n (by omega)
  simp only [Ctx.inside] at ha hb
  simp [sidesP, ha, hb, want_op, skipParens_closes (d := 0) _ hw]

theorem read_stmts {as us : List Tok} {ss : Stmts} (ha : Attributes as) (hp : Phrase .bare c us ss)
    (h : Readable .bare c us ss) : Readable .stmts c (as ++ us) ss := by
  intro rest
  obtain ⟨N, h⟩ := h rest
  refine Deep.step (f := fun r => stmtsP r c (as ++ (us ++ rest))) ⟨N, fun n hn => ?_⟩ fun _ => by
    simp only [List.append_assoc]; rfl
  have h := h n hn
  obtain ⟨t, ts, rfl, ht⟩ := phrase_first hp _ rfl
  have : skipAttrs 0 (as ++ (t :: ts ++ rest)) = some (t :: ts ++ rest) := by
    rw [skipAttrs_attributes ha]
    exact skipAttrs_stop (by rintro rfl; cases ht)
  simp only [stmtsP, this, h, Option.bind_eq_bind, Option.bind_some]

theorem read_use {us vs : List Tok} {ss : Stmts} (hu : .op .semi ∉ us) (h : Readable .stmts c vs ss) :
    Readable .bare c (.kw .use :: us ++ .op .semi :: vs) ss := by
  intro rest
  obtain ⟨N, h⟩ := h rest
  refine ⟨N, fun n hn => ?_⟩
  have h := h n hn
  simp [bareP, skipTo_until _ hu, h]

theorem skipRefs_name {rs : List Tok} (h : Refs rs) (n : Nat) (ts : List Tok) :
    skipRefs (rs ++ .name n :: ts) = .name n :: ts := by
  rw [skipRefs_refs _ h]; rfl

theorem read_letFn {rs : List Tok} {n : Nat} {x o : Id} {us vs ws : List Tok} {ps : List (Id × Ty)} {b : Expr}
    {ss : Stmts} (hrs : Refs rs) (hx : ident n = some x) (ho : ident c.owner = some o) (hp : Readable .params c us ps)
    (hb : Readable .whole c vs b) (hs : Readable .stmts { c with closures := n :: c.closures } ws ss) :
    Readable .bare c (.kw .let :: rs ++ .name n :: .op .eq :: .op .bar :: us ++ vs ++ .op .semi :: ws)
      (.letFn o x ps b ss) := by
  intro rest
  obtain ⟨N, hp⟩ := hp (vs ++ .op .semi :: (ws ++ rest)) (us ++ (vs ++ .op .semi :: (ws ++ rest))).length (by simp)
  obtain ⟨M, hb⟩ := hb (.op .semi :: (ws ++ rest)) (ends_of rfl)
  obtain ⟨K, hs⟩ := hs rest
  refine ⟨N + M + K, fun n hn => ?_⟩
  have hp := hp n (by omega)
  have hb := hb n (by omega)
  have hs := hs n (by omega)
  simp only [bareP, List.append_assoc, List.cons_append, skipRefs_name hrs, hx, ho, hp, hb, hs, want_op,
    Option.bind_eq_bind, Option.bind_some]

theorem read_letClosure {rs : List Tok} {n : Nat} {x : Id} {us vs : List Tok} {e : Expr} {ss : Stmts} (hrs : Refs rs)
    (hx : ident n = some x) (he : Readable .whole c us e)
    (hs : Readable .stmts { c with closures := n :: c.closures } vs ss) :
    Readable .bare c (.kw .let :: rs ++ .name n :: .op .eq :: .op .bars :: us ++ .op .semi :: vs)
      (.letClosure x e ss) := by
  intro rest
  obtain ⟨N, he⟩ := he (.op .semi :: (vs ++ rest)) (ends_of rfl)
  obtain ⟨K, hs⟩ := hs rest
  refine ⟨N + K, fun n hn => ?_⟩
  have he := he n (by omega)
  have hs := hs n (by omega)
  simp only [bareP, List.append_assoc, List.cons_append, skipRefs_name hrs, hx, he, hs, want_op,
    Option.bind_eq_bind, Option.bind_some]

theorem read_let {rs : List Tok} {n : Nat} {x : Id} {us vs ws : List Tok} {t : Ty} {e : Expr} {ss : Stmts}
    (hrs : Refs rs) (hx : ident n = some x) (hp : Phrase .annot c us t) (ht : Readable .annot c us t)
    (hw : Phrase .whole c vs e) (he : Readable .whole c vs e) (hs : Readable .stmts c ws ss) :
    Readable .bare c (.kw .let :: rs ++ .name n :: us ++ .op .eq :: vs ++ .op .semi :: ws) (.let_ x t e ss) := by
  intro rest
  obtain ⟨N, ht⟩ := ht (.op .eq :: (vs ++ .op .semi :: (ws ++ rest))) (by intro; simp) (by intro; simp) (by intro; simp)
  obtain ⟨M, he⟩ := he (.op .semi :: (ws ++ rest)) (ends_of rfl)
  obtain ⟨K, hs⟩ := hs rest
  refine ⟨N + M + K, fun m hm => ?_⟩
  have ht := ht m (by omega)
  have he := he m (by omega)
  have hs := hs m (by omega)
  simp only [bareP, List.append_assoc, List.cons_append, skipRefs_name hrs]
  obtain ⟨u, us', rfl, hu⟩ := phrase_first hw _ rfl
  split
  · next h =>
    exfalso
    cases hp with
    | annot0 => cases h; cases hu
    | annot h' => cases h
  · next h =>
    exfalso
    cases hp with
    | annot0 => cases h; cases hu
    | annot h' => cases h
  · simp only [identP, hx, ht, he, hs, want_op, Option.bind_eq_bind, Option.bind_some]

theorem read_assert {us vs : List Tok} {e : Expr} {ss : Stmts} (he : Readable .whole c us e)
    (hs : Readable .stmts c vs ss) :
    Readable .bare c (.kw .assert :: .op .bang :: .op .lparen :: us ++ .op .rparen :: .op .semi :: vs)
      (.assert e ss) := by
  intro rest
  obtain ⟨N, he⟩ := he (.op .rparen :: .op .semi :: (vs ++ rest)) (ends_of rfl)
  obtain ⟨M, hs⟩ := hs rest
  refine ⟨N + M, fun n hn => ?_⟩
  have he := he n (by omega)
  have hs := hs n (by omega)
  simp only [bareP, List.append_assoc, List.cons_append, he, hs, want_op, Option.bind_eq_bind, Option.bind_some]

theorem read_assertEq {us vs : List Tok} {a b : Expr} {ss : Stmts} (h : Readable .sides c us (a, b))
    (hs : Readable .stmts c vs ss) :
    Readable .bare c (.kw .assert_eq :: .op .bang :: .op .lparen :: us ++ vs) (.assertEq true a b ss) := by
  intro rest
  obtain ⟨N, h⟩ := h (vs ++ rest)
  obtain ⟨M, hs⟩ := hs rest
  refine ⟨N + M, fun n hn => ?_⟩
  have h := h n (by omega)
  have hs := hs n (by omega)
  simp only [bareP, List.append_assoc, List.cons_append, h, hs, Option.bind_eq_bind, Option.bind_some]

theorem read_assertNe {us vs : List Tok} {a b : Expr} {ss : Stmts} (h : Readable .sides c us (a, b))
    (hs : Readable .stmts c vs ss) :
    Readable .bare c (.kw .assert_ne :: .op .bang :: .op .lparen :: us ++ vs) (.assertEq false a b ss) := by
  intro rest
  obtain ⟨N, h⟩ := h (vs ++ rest)
  obtain ⟨M, hs⟩ := hs rest
  refine ⟨N + M, fun n hn => ?_⟩
  have h := h n (by omega)
  have hs := hs n (by omega)
  simp only [bareP, List.append_assoc, List.cons_append, h, hs, Option.bind_eq_bind, Option.bind_some]

theorem read_forRevEnum {i m v x : Nat} {i' m' v' x' : Id} {us vs : List Tok} {e : Expr} {ss : Stmts}
    (hi : ident i = some i') (hm : ident m = some m') (hv : ident v = some v') (hx : ident x = some x')
    (he : Readable .whole c us e) (hs : Readable .stmts c vs ss) :
    Readable .bare c (.kw .for :: .op .lparen :: .name i :: .op .comma :: .name m :: .op .rparen :: .kw .in ::
      .name v :: .op .dot :: .kw .iter :: .op .lparen :: .op .rparen ::
      .op .dot :: .kw .rev :: .op .lparen :: .op .rparen ::
      .op .dot :: .kw .enumerate :: .op .lparen :: .op .rparen ::
      .op .lbrace :: .name x :: .op .orEq :: us ++ .op .semi :: .op .rbrace :: vs)
      (.forRevEnum i' m' (.var v') x' e ss) := by
  intro rest
  obtain ⟨N, he⟩ := he (.op .semi :: .op .rbrace :: (vs ++ rest)) (ends_of rfl)
  obtain ⟨M, hs⟩ := hs rest
  refine ⟨N + M, fun n hn => ?_⟩
  have he := he n (by omega)
  have hs := hs n (by omega)
  simp only [bareP, List.append_assoc, List.cons_append, hi, hm, hv, hx, he, hs, want_op, Option.bind_eq_bind,
    Option.bind_some]

/-- A statement that starts with an expression. -/
theorem bareP_expr (r : Rules) {t : Tok} (ht : firstWhole t = true) (ts : List Tok) :
    bareP r c (t :: ts) = match blockFirst (t :: ts) with
      | true => (primary r c (t :: ts)).bind fun p => match p.2 with
        | .op .rbrace :: ts => some (.done p.1, ts)
        | .op .semi :: ts => (r.stmts c ts).bind fun q => some (.expr p.1 q.1, q.2)
        | ts => (r.stmts c ts).bind fun q => some (.expr p.1 q.1, q.2)
      | false => (r.expr c 0 (t :: ts)).bind fun p => match p.2 with
        | .op .rbrace :: ts => some (.done p.1, ts)
        | .op .semi :: ts => (r.stmts c ts).bind fun q => some (.expr p.1 q.1, q.2)
        | _ => none := by
  unfold bareP
  split
  case h_8 => rfl
  all_goals next he => cases he; cases ht

theorem blocky_whole {us : List Tok} (h : Blocky us) : ∃ t ts, us = t :: ts ∧ firstWhole t = true := by
  obtain ⟨vs, rfl | rfl | rfl⟩ := h <;> exact ⟨_, _, rfl, rfl⟩

theorem read_blockLast {us : List Tok} {e : Expr} (hb : Blocky us) (h : Readable .prim c us e) :
    Readable .bare c (us ++ [.op .rbrace]) (.done e) := by
  intro rest
  obtain ⟨N, h⟩ := h (.op .rbrace :: rest) (by intro; simp) fun h => absurd hb h
  refine ⟨N, fun n hn => ?_⟩
  have h := h n hn
  have hB := blockFirst_blocky hb (.op .rbrace :: rest)
  obtain ⟨t, ts, rfl, ht⟩ := blocky_whole hb
  simp only [List.cons_append, List.append_assoc, List.nil_append] at h hB ⊢
  simp only [bareP_expr _ ht, hB, h, Option.bind_some]

theorem read_blockSemi {us vs : List Tok} {e : Expr} {ss : Stmts} (hb : Blocky us) (h : Readable .prim c us e)
    (hs : Readable .stmts c vs ss) : Readable .bare c (us ++ .op .semi :: vs) (.expr e ss) := by
  intro rest
  obtain ⟨N, h⟩ := h (.op .semi :: (vs ++ rest)) (by intro; simp) fun h => absurd hb h
  obtain ⟨M, hs⟩ := hs rest
  refine ⟨N + M, fun n hn => ?_⟩
  have h := h n (by omega)
  have hs := hs n (by omega)
  have hB := blockFirst_blocky hb (.op .semi :: (vs ++ rest))
  obtain ⟨t, ts, rfl, ht⟩ := blocky_whole hb
  simp only [List.cons_append, List.append_assoc] at h hB ⊢
  simp only [bareP_expr _ ht, hB, h, hs, Option.bind_some]

theorem stmts_close {us vs : List Tok} {ss : Stmts} (h : Phrase .stmts c us ss) (he : us = .op .rbrace :: vs) :
    us = [.op .rbrace] := by
  cases h with
  | stmts ha h =>
    cases ha with
    | outer => cases he
    | inner => cases he
    | nil =>
      rw [List.nil_append] at he ⊢
      cases h with
      | finish => rfl
      | use | letFn | letClosure | let_ | assert | assertEq | assertNe | forRevEnum => cases he
      | blockLast hb h | blockSemi hb h | blockMore hb h =>
        obtain ⟨vs, rfl | rfl | rfl⟩ := hb <;> cases he
      | exprLast _ h | exprSemi _ h =>
        obtain ⟨t, ts, rfl, ht⟩ := phrase_first h _ rfl
        cases he
        cases ht

theorem read_blockMore {us vs : List Tok} {e : Expr} {ss : Stmts} (hb : Blocky us) (h : Readable .prim c us e)
    (hv : vs ≠ [.op .rbrace]) (hp : Phrase .stmts c vs ss) (hs : Readable .stmts c vs ss) :
    Readable .bare c (us ++ vs) (.expr e ss) := by
  intro rest
  obtain ⟨u, us', he, hu⟩ := phrase_first hp _ rfl
  have h1 : u ≠ .op .rbrace := fun e => hv (stmts_close hp (e ▸ he))
  have h2 : u ≠ .op .semi := by rintro rfl; cases hu
  have h3 : u ≠ .kw .else := by rintro rfl; cases hu
  obtain ⟨N, h⟩ := h (vs ++ rest) (by subst he; intro ts h; cases h; exact h3 rfl) fun h => absurd hb h
  obtain ⟨M, hs⟩ := hs rest
  refine ⟨N + M, fun n hn => ?_⟩
  have h := h n (by omega)
  have hs := hs n (by omega)
  have hB := blockFirst_blocky hb (vs ++ rest)
  obtain ⟨t, ts, rfl, ht⟩ := blocky_whole hb
  simp only [List.cons_append, List.append_assoc] at h hB ⊢
  simp only [bareP_expr _ ht, hB, h, Option.bind_some]
  split
  · next e => rw [he] at e; cases e; exact absurd rfl h1
  · next e => rw [he] at e; cases e; exact absurd rfl h2
  · simp only [hs, Option.bind_some]

theorem read_exprLast {us : List Tok} {e : Expr} (hb : ¬ Blocky us) (hp : Phrase .whole c us e)
    (h : Readable .whole c us e) : Readable .bare c (us ++ [.op .rbrace]) (.done e) := by
  intro rest
  obtain ⟨N, h⟩ := h (.op .rbrace :: rest) (ends_of rfl)
  refine ⟨N, fun n hn => ?_⟩
  have h := h n hn
  have hB := blockFirst_not hp hb (.op .rbrace :: rest)
  obtain ⟨t, ts, rfl, ht⟩ := phrase_first hp _ rfl
  simp only [List.cons_append, List.append_assoc, List.nil_append] at h hB ⊢
  simp only [bareP_expr _ ht, hB, h, Option.bind_some]

theorem read_exprSemi {us vs : List Tok} {e : Expr} {ss : Stmts} (hb : ¬ Blocky us) (hp : Phrase .whole c us e)
    (h : Readable .whole c us e) (hs : Readable .stmts c vs ss) :
    Readable .bare c (us ++ .op .semi :: vs) (.expr e ss) := by
  intro rest
  obtain ⟨N, h⟩ := h (.op .semi :: (vs ++ rest)) (ends_of rfl)
  obtain ⟨M, hs⟩ := hs rest
  refine ⟨N + M, fun n hn => ?_⟩
  have h := h n (by omega)
  have hs := hs n (by omega)
  have hB := blockFirst_not hp hb (.op .semi :: (vs ++ rest))
  obtain ⟨t, ts, rfl, ht⟩ := phrase_first hp _ rfl
  simp only [List.cons_append, List.append_assoc] at h hB ⊢
  simp only [bareP_expr _ ht, hB, h, hs, Option.bind_some]

end

/-- Every phrase is read as its tree. -/
theorem complete {k : Cat} {c : Ctx} {us : List Tok} {v : k.Tree} (h : Phrase k c us v) : Readable k c us v := by
  induction h with
  | tyRef ht _ ih => exact read_tyRef ht ih
  | tyArray _ ih => exact read_tyArray ih
  | tySelfMember => exact fun _ _ _ => ty_step (.const fun _ => rfl)
  | tySelf => exact read_tySelf
  | tyLocation => exact fun _ _ _ => ty_step (.const fun _ => rfl)
  | tyPath _ ih => exact read_tyPath ih
  | tyName _ ih => exact read_tyName ih
  | tyArgs0 => exact read_tyArgs0
  | tyArgs1 _ ih => exact read_tyArgs1 ih
  | tyArgs2 _ _ ih ih' => exact read_tyArgs2 ih ih'
  | segs0 => exact read_segs0
  | segsMore _ ih => exact read_segsMore ih
  | segsFrom => exact fun _ _ => Deep.step (f := fun r => segsP r (.op .colon2 :: .kw .from :: _)) (.const fun _ => rfl) fun _ => rfl
  | path _ ih => exact read_path ih
  | pathSelf hs _ ih => exact read_pathSelf hs ih
  | ctorPrelude hp hi ht ih => exact read_ctorPrelude hp ih hi ht
  | ctor hp hi hj ih => exact read_ctor hp ih hi hj
  | patRange => exact fun _ _ _ _ => .const fun _ => rfl
  | patLit => exact read_patLit
  | patWild => exact fun _ _ _ _ => .const fun _ => rfl
  | patVar hp hi ht ih => exact read_patVar hp ih hi ht
  | patCtor _ ih => exact read_patCtor ih
  | patCtor1 _ _ hw ih ih' => exact read_patCtor1 ih ih' hw
  | pat hb hp ih => exact read_pat hb hp ih
  | patOr hb hp _ ih ih' => exact read_patOr hb hp ih ih'
  | return_ _ ih => exact read_return ih
  | whole _ ih => exact read_whole ih
  | up hl hp ih => exact read_up hl hp ih
  | bin o _ _ ih ih' => exact read_bin o ih ih'
  | cast _ _ ih ih' => exact read_cast ih ih'
  | unary _ ih => exact read_unary ih
  | ref _ ih => exact read_ref ih
  | deref _ ih => exact read_deref ih
  | neg _ ih => exact read_neg ih
  | post _ ih => exact read_post ih
  | question _ ih => exact read_question ih
  | unwrap _ ih => exact read_unwrap ih
  | expect _ ih => exact read_expect ih
  | unwrapOrElse _ hi _ ih ih' => exact read_unwrapOrElse ih hi ih'
  | into _ ih => exact read_into ih
  | pow _ _ ih ih' => exact read_pow ih ih'
  | method _ hi _ ih ih' => exact read_method ih hi ih'
  | field _ hi ih => exact read_field ih hi
  | prim hp ih => exact read_prim hp ih
  | num => exact fun _ _ _ => .const fun _ => rfl
  | numTyped => exact fun _ _ _ => .const fun _ => rfl
  | str => exact fun _ _ _ => .const fun _ => rfl
  | paren _ ih => exact read_paren ih
  | array _ ih => exact read_array ih
  | blockExpr hp ih => exact read_blockExpr hp ih
  | ifElse _ hp _ ih ih' ih'' => exact read_ifElse ih hp ih' ih''
  | ifThen _ hp ih ih' => exact read_ifThen ih hp ih'
  | match_ _ _ ih ih' => exact read_match ih ih'
  | true_ => exact fun _ _ _ => .const fun _ => rfl
  | false_ => exact fun _ _ _ => .const fun _ => rfl
  | unreachable h => exact read_unreachable h
  | panic h => exact read_panic h
  | matches_ _ _ ih ih' => exact read_matches ih ih'
  | caller => exact fun _ _ _ => .const fun _ => rfl
  | write _ hs hp ih => exact read_write ih (cut_complete hs) (pieces_complete hp)
  | write0 hs hp => exact read_write0 (cut_complete hs) (pieces_complete hp)
  | call hp _ he ih ih' => exact read_call hp ih ih' he
  | struct hs hp hi _ ih ih' => exact read_struct hs hp ih hi ih'
  | none_ hp hi ih => exact read_none hp ih hi
  | var hp hi hn ih => exact read_var hp ih hi hn
  | variant hp hi hj ih => exact read_variant hp ih hi hj
  | args0 => exact read_args0
  | args1 hp ih => exact read_args1 hp ih
  | argsMore hp _ ih ih' => exact read_argsMore hp ih ih'
  | block _ ih => exact read_block ih
  | arms0 => exact read_arms0
  | armBlock hp hb _ hs ha ih ih' ih'' => exact read_armBlock hp ih hb ih' hs ha ih''
  | armLast hp hb hw ih ih' => exact read_armLast hp ih hb hw ih'
  | armMore hp hb hw _ ih ih' ih'' => exact read_armMore hp ih hb hw ih' ih''
  | fields0 => exact read_fields0
  | fieldLast hi _ ih => exact read_fieldLast hi ih
  | fieldMore hi _ _ ih ih' => exact read_fieldMore hi ih ih'
  | params0 => exact read_params0
  | paramLast hi _ ih => exact read_paramLast hi ih
  | paramMore hi _ _ ih ih' => exact read_paramMore hi ih ih'
  | annot0 => exact read_annot0
  | annot _ ih => exact fun rest h1 h2 _ => (ih rest h1 h2).congr fun _ => rfl
  | sides _ _ ih ih' => exact read_sides ih ih'
  | sidesMessage _ _ hw ih ih' => exact read_sidesMessage ih ih' hw
  | stmts ha hp ih => exact read_stmts ha hp ih
  | finish => exact fun _ => .const fun _ => rfl
  | use hu _ ih => exact read_use hu ih
  | letFn hrs hx ho _ _ _ ih ih' ih'' => exact read_letFn hrs hx ho ih ih' ih''
  | letClosure hrs hx _ _ ih ih' => exact read_letClosure hrs hx ih ih'
  | let_ hrs hx hp hw _ ih ih' ih'' => exact read_let hrs hx hp ih hw ih' ih''
  | assert _ _ ih ih' => exact read_assert ih ih'
  | assertEq _ _ ih ih' => exact read_assertEq ih ih'
  | assertNe _ _ ih ih' => exact read_assertNe ih ih'
  | forRevEnum hi hm hv hx _ _ ih ih' => exact read_forRevEnum hi hm hv hx ih ih'
  | blockLast hb _ ih => exact read_blockLast hb ih
  | blockSemi hb _ _ ih ih' => exact read_blockSemi hb ih ih'
  | blockMore hb _ hv hp ih ih' => exact read_blockMore hb ih hv hp ih'
  | exprLast hb hp ih => exact read_exprLast hb hp ih
  | exprSemi hb hp _ ih ih' => exact read_exprSemi hb hp ih ih'

end Raki.Source
