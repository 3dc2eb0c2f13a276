import Verif.Source.Grammar
/-!
# What the reader reads is a phrase of the grammar
-/

set_option linter.constructorNameAsVariable false

namespace Raki.Source

/-- A phrase of this kind was taken from the front of the tokens. -/
def Took (k : Cat) (c : Ctx) (ts : List Tok) (v : k.Tree) (rest : List Tok) : Prop :=
  ∃ us, ts = us ++ rest ∧ Phrase k c us v

/-- The rules only read phrases of the grammar. -/
structure Sound (r : Rules) : Prop where
  whole : ∀ {c ts e rest}, r.expr c 0 ts = some (e, rest) → Took .whole c ts e rest
  expr : ∀ {c l ts e rest}, l ≤ 4 → r.expr c (l + 1) ts = some (e, rest) → Took (.expr (l + 1)) c ts e rest
  bin : ∀ {c l us a ts e rest}, l ≤ 4 → Phrase (.expr l) c us a → r.bin c l a ts = some (e, rest) →
    ∃ vs, us ++ ts = vs ++ rest ∧ Phrase (.expr l) c vs e
  cast : ∀ {c us a ts e rest}, Phrase (.expr 5) c us a → r.cast c a ts = some (e, rest) →
    ∃ vs, us ++ ts = vs ++ rest ∧ Phrase (.expr 5) c vs e
  unary : ∀ {c ts e rest}, r.unary c ts = some (e, rest) → Took .unary c ts e rest
  post : ∀ {c us a ts e rest}, Phrase .post c us a → r.post c a ts = some (e, rest) →
    ∃ vs, us ++ ts = vs ++ rest ∧ Phrase .post c vs e
  args : ∀ {c o ts es rest}, r.args c o ts = some (es, rest) → Took (.args o) c ts es rest
  arms : ∀ {c ts as rest}, r.arms c ts = some (as, rest) → Took .arms c ts as rest
  fields : ∀ {c ts fs rest}, r.fields c ts = some (fs, rest) → Took .fields c ts fs rest
  stmts : ∀ {c ts ss rest}, r.stmts c ts = some (ss, rest) → Took .stmts c ts ss rest
  pat : ∀ {c ts p rest}, r.pat c ts = some (p, rest) → Took .pat c ts p rest
  ty : ∀ {c ts t rest}, r.ty c ts = some (t, rest) → Took .ty c ts t rest
  segs : ∀ {c ts ms rest}, r.segs ts = some (ms, rest) → Took .segs c ts ms rest

/-! ## Small pieces -/

theorem want_some {o : Op} {ts us : List Tok} (h : want o ts = some us) : ts = .op o :: us := by
  unfold want at h
  split at h
  · next p vs =>
    split at h
    · next hb =>
      have : o = p := by
        have := Nat.eq_of_beq_eq_true hb
        cases o <;> cases p <;> first | rfl | (exfalso; revert this; decide)
      cases h; rw [this]
    · cases h
  · cases h

theorem want_op (o : Op) (us : List Tok) : want o (.op o :: us) = some us := by
  simp [want, Nat.beq_refl]

theorem sep_some {o : Op} {ts us : List Tok} (h : sep o ts = some us) :
    ts = .op .comma :: us ∨ (ts = us ∧ ∃ vs, us = .op o :: vs) := by
  unfold sep at h
  split at h
  · next h1 => cases h; exact Or.inl (want_some h1)
  · next _ h1 => cases h; exact Or.inr ⟨rfl, _, want_some h1⟩
  · cases h

theorem eat_opt {ts : List Tok} : ∃ bs, OptComma bs ∧ ts = bs ++ (eat .comma ts).2 := by
  unfold eat
  split
  · next h => exact ⟨[.op .comma], Or.inr rfl, by rw [want_some h]; rfl⟩
  · exact ⟨[], Or.inl rfl, rfl⟩

theorem eat_bar {ts : List Tok} : ∃ bs, OptBar bs ∧ ts = bs ++ (eat .bar ts).2 := by
  unfold eat
  split
  · next h => exact ⟨[.op .bar], Or.inr rfl, by rw [want_some h]; rfl⟩
  · exact ⟨[], Or.inl rfl, rfl⟩

theorem skipRefs_took : ∀ ts, ∃ rs, Refs rs ∧ ts = rs ++ skipRefs ts
  | [] => ⟨[], by simp [Refs], rfl⟩
  | t :: ts => by
    obtain ⟨rs, h1, h2⟩ := skipRefs_took ts
    by_cases ht : t = .op .amp ∨ t = .kw .mut ∨ t = .life
    · refine ⟨t :: rs, ?_, ?_⟩
      · intro u hu
        rcases List.mem_cons.mp hu with rfl | hu
        · exact ht
        · exact h1 u hu
      · have : skipRefs (t :: ts) = skipRefs ts := by rcases ht with rfl | rfl | rfl <;> rfl
        rw [this, List.cons_append, ← h2]
    · refine ⟨[], by simp [Refs], ?_⟩
      clear h2
      unfold skipRefs
      split
      · next h => cases h; exact absurd (Or.inl rfl) ht
      · next h => cases h; exact absurd (Or.inr (Or.inl rfl)) ht
      · next h => cases h; exact absurd (Or.inr (Or.inr rfl)) ht
      · rfl

theorem skipParens_took : ∀ {ts us : List Tok} {d : Nat}, skipParens (d + 1) ts = some us →
    ∃ vs, ts = vs ++ us ∧ Closes .lparen .rparen (d + 1) vs
  | [], us, d, h => by cases d <;> simp [skipParens] at h
  | t :: ts, us, d, h => by
    by_cases hl : t = .op .lparen
    · subst hl
      have h' : skipParens (d + 2) ts = some us := by cases d <;> simpa [skipParens] using h
      obtain ⟨vs, rfl, hv⟩ := skipParens_took h'
      exact ⟨_ :: vs, rfl, .enter hv⟩
    · by_cases hr : t = .op .rparen
      · subst hr
        cases d with
        | zero =>
          have h' : some ts = some us := h
          cases h'
          exact ⟨[.op .rparen], rfl, .leave .done⟩
        | succ d =>
          have h' : skipParens (d + 1) ts = some us := by simpa [skipParens] using h
          obtain ⟨vs, rfl, hv⟩ := skipParens_took h'
          exact ⟨_ :: vs, rfl, .leave hv⟩
      · have h' : skipParens (d + 1) ts = some us := by
          unfold skipParens at h
          split at h <;> simp_all
        obtain ⟨vs, rfl, hv⟩ := skipParens_took h'
        exact ⟨_ :: vs, rfl, .other hl hr hv⟩

/-- What `skipAttrs` takes when `d` brackets are open. -/
def AttrRest : Nat → List Tok → Prop
  | 0, us => Attributes us
  | d + 1, us => ∃ vs ws, us = vs ++ ws ∧ Closes .lbrack .rbrack (d + 1) vs ∧ Attributes ws

theorem skipAttrs_took : ∀ {ts us : List Tok} {d : Nat}, skipAttrs d ts = some us → ∃ vs, ts = vs ++ us ∧ AttrRest d vs
  | [], us, d, h => by
    cases d with
    | zero => simp only [skipAttrs] at h; cases h; exact ⟨[], rfl, .nil⟩
    | succ d => simp [skipAttrs] at h
  | t :: ts, us, d + 1, h => by
    by_cases hl : t = .op .lbrack
    · subst hl
      have h' : skipAttrs (d + 2) ts = some us := by simpa [skipAttrs] using h
      obtain ⟨_, rfl, vs, ws, rfl, hv, hw⟩ := skipAttrs_took h'
      exact ⟨_ :: (vs ++ ws), rfl, _ :: vs, ws, rfl, .enter hv, hw⟩
    · by_cases hr : t = .op .rbrack
      · subst hr
        have h' : skipAttrs d ts = some us := by simpa [skipAttrs] using h
        obtain ⟨xs, rfl, hx⟩ := skipAttrs_took h'
        cases d with
        | zero => exact ⟨_ :: xs, rfl, [.op .rbrack], xs, rfl, .leave .done, hx⟩
        | succ d =>
          obtain ⟨vs, ws, rfl, hv, hw⟩ := hx
          exact ⟨_ :: (vs ++ ws), rfl, _ :: vs, ws, rfl, .leave hv, hw⟩
      · have h' : skipAttrs (d + 1) ts = some us := by
          unfold skipAttrs at h
          split at h <;> simp_all
        obtain ⟨_, rfl, vs, ws, rfl, hv, hw⟩ := skipAttrs_took h'
        exact ⟨_ :: (vs ++ ws), rfl, _ :: vs, ws, rfl, .other hl hr hv, hw⟩
  | .op .hash :: .op .lbrack :: ts, us, 0, h => by
    have h' : skipAttrs 1 ts = some us := by simpa [skipAttrs] using h
    obtain ⟨_, rfl, vs, ws, rfl, hv, hw⟩ := skipAttrs_took h'
    exact ⟨_ :: _ :: (vs ++ ws), rfl, .outer hv hw⟩
  | .op .hash :: .op .bang :: .op .lbrack :: ts, us, 0, h => by
    have h' : skipAttrs 1 ts = some us := by simpa [skipAttrs] using h
    obtain ⟨_, rfl, vs, ws, rfl, hv, hw⟩ := skipAttrs_took h'
    exact ⟨_ :: _ :: _ :: (vs ++ ws), rfl, .inner hv hw⟩
  | t :: ts, us, 0, h => by
    by_cases h1 : ∃ vs, t :: ts = .op .hash :: .op .lbrack :: vs
    · obtain ⟨vs, h1⟩ := h1
      cases h1
      have h' : skipAttrs 1 vs = some us := by simpa [skipAttrs] using h
      obtain ⟨_, rfl, vs, ws, rfl, hv, hw⟩ := skipAttrs_took h'
      exact ⟨_ :: _ :: (vs ++ ws), rfl, .outer hv hw⟩
    · by_cases h2 : ∃ vs, t :: ts = .op .hash :: .op .bang :: .op .lbrack :: vs
      · obtain ⟨vs, h2⟩ := h2
        cases h2
        have h' : skipAttrs 1 vs = some us := by simpa [skipAttrs] using h
        obtain ⟨_, rfl, vs, ws, rfl, hv, hw⟩ := skipAttrs_took h'
        exact ⟨_ :: _ :: _ :: (vs ++ ws), rfl, .inner hv hw⟩
      · unfold skipAttrs at h
        split at h <;> simp_all
        exact .nil
termination_by ts => ts.length

theorem skipTo_took {o : Op} : ∀ {ts us : List Tok}, skipTo o ts = some us →
    ∃ vs, ts = vs ++ .op o :: us ∧ .op o ∉ vs
  | [], us, h => by simp [skipTo] at h
  | t :: ts, us, h => by
    unfold skipTo at h
    split at h
    · next hw => cases h; exact ⟨[], want_some hw, by simp⟩
    · next hw =>
      obtain ⟨vs, rfl, hv⟩ := skipTo_took h
      refine ⟨t :: vs, rfl, ?_⟩
      intro hm
      rcases List.mem_cons.mp hm with rfl | hm
      · rw [want_op] at hw; cases hw
      · exact hv hm

theorem phrase_ne_nil {k : Cat} {c : Ctx} {us : List Tok} {v : k.Tree} (h : Phrase k c us v)
    (h1 : k ≠ .segs) (h2 : k ≠ .tyArgs) (h3 : k ≠ .annot) : us ≠ [] := by
  induction h <;> simp_all

/-! ## How phrases start -/

/-- The first token of a path. -/
def firstPath : Tok → Bool
  | .name _ => true
  | .kw .Self => true
  | _ => false

/-- The first token of a pattern without alternatives. -/
def firstPat1 : Tok → Bool
  | .num _ _ => true
  | t => firstPath t

/-- The first token of a pattern. -/
def firstPat : Tok → Bool
  | .op .bar => true
  | t => firstPat1 t

/-- The first token of an operand. -/
def firstPrim : Tok → Bool
  | .num _ _ => true
  | .str _ => true
  | .op .lparen => true
  | .op .lbrack => true
  | .op .lbrace => true
  | .kw .if => true
  | .kw .match => true
  | .kw .true => true
  | .kw .false => true
  | .kw .unreachable => true
  | .kw .panic => true
  | .kw .matches => true
  | .kw .std => true
  | .kw .write => true
  | t => firstPath t

/-- The first token of an operand with operators in front. -/
def firstUnary : Tok → Bool
  | .op .amp => true
  | .op .star => true
  | .op .minus => true
  | t => firstPrim t

/-- The first token of an expression. -/
def firstWhole : Tok → Bool
  | .kw .return => true
  | t => firstUnary t

/-- The first token of a type. -/
def firstTy : Tok → Bool
  | .op .amp => true
  | .kw .mut => true
  | .life => true
  | .op .lbrack => true
  | .kw .std => true
  | t => firstPath t

/-- The first token of statements, the first without attributes. -/
def firstBare : Tok → Bool
  | .op .rbrace => true
  | .kw .use => true
  | .kw .let => true
  | .kw .assert => true
  | .kw .assert_eq => true
  | .kw .assert_ne => true
  | .kw .for => true
  | t => firstWhole t

/-- The first token of statements. -/
def firstStmts : Tok → Bool
  | .op .hash => true
  | t => firstBare t

/-- The first tokens of the kinds of phrases that start with something in particular. -/
def Cat.first : Cat → Option (Tok → Bool)
  | .ty => some firstTy
  | .path | .ctor => some firstPath
  | .pat1 => some firstPat1
  | .pat => some firstPat
  | .whole => some firstWhole
  | .expr _ | .unary => some firstUnary
  | .post | .prim => some firstPrim
  | .block => some fun t => match t with | .op .lbrace => true | _ => false
  | .bare => some firstBare
  | .stmts => some firstStmts
  | _ => none

theorem firstPath_pat1 {t} (h : firstPath t = true) : firstPat1 t = true := by
  unfold firstPat1; split <;> first | rfl | exact h

theorem firstPat1_pat {t} (h : firstPat1 t = true) : firstPat t = true := by
  unfold firstPat; split <;> first | rfl | exact h

theorem firstPath_prim {t} (h : firstPath t = true) : firstPrim t = true := by
  unfold firstPrim; split <;> first | rfl | exact h

theorem firstPrim_unary {t} (h : firstPrim t = true) : firstUnary t = true := by
  unfold firstUnary; split <;> first | rfl | exact h

theorem firstUnary_whole {t} (h : firstUnary t = true) : firstWhole t = true := by
  unfold firstWhole; split <;> first | rfl | exact h

theorem firstWhole_bare {t} (h : firstWhole t = true) : firstBare t = true := by
  unfold firstBare; split <;> first | rfl | exact h

theorem firstBare_stmts {t} (h : firstBare t = true) : firstStmts t = true := by
  unfold firstStmts; split <;> first | rfl | exact h

/-- What starts one kind of phrase starts another. -/
local macro "widen% " h:ident : term => `(by first
  | exact $h
  | exact firstPath_pat1 $h
  | exact firstPath_prim $h
  | exact firstPrim_unary $h
  | exact firstUnary_whole $h
  | exact firstWhole_bare $h
  | exact firstWhole_bare (firstUnary_whole (firstPrim_unary $h)))

theorem phrase_first {k : Cat} {c : Ctx} {us : List Tok} {v : k.Tree} (h : Phrase k c us v) :
    ∀ p, k.first = some p → ∃ t ts, us = t :: ts ∧ p t = true := by
  induction h
  case tyRef ht _ _ => intro p hp; cases hp; rcases ht with rfl | rfl | rfl <;> exact ⟨_, _, rfl, rfl⟩
  case pat hb _ ih =>
    intro p hp; cases hp
    obtain ⟨t, ts, rfl, ht⟩ := ih _ rfl
    rcases hb with rfl | rfl
    · exact ⟨_, _, rfl, firstPat1_pat ht⟩
    · exact ⟨_, _, rfl, rfl⟩
  case patOr hb _ _ ih _ =>
    intro p hp; cases hp
    obtain ⟨t, ts, rfl, ht⟩ := ih _ rfl
    rcases hb with rfl | rfl
    · exact ⟨_, _, rfl, firstPat1_pat ht⟩
    · exact ⟨_, _, rfl, rfl⟩
  case stmts ha _ ih =>
    intro p hp; cases hp
    obtain ⟨t, ts, rfl, ht⟩ := ih _ rfl
    cases ha with
    | nil => exact ⟨_, _, rfl, firstBare_stmts ht⟩
    | outer => exact ⟨_, _, rfl, rfl⟩
    | inner => exact ⟨_, _, rfl, rfl⟩
  case blockExpr _ ih =>
    intro p hp; cases hp
    obtain ⟨t, ts, rfl, ht⟩ := ih _ rfl
    split at ht
    · exact ⟨_, _, rfl, rfl⟩
    · cases ht
  all_goals
    intro p hp
    first
    | cases hp
    | skip
  all_goals first
    | exact ⟨_, _, rfl, rfl⟩
    | (rename_i ih; obtain ⟨t, ts, rfl, ht⟩ := ih _ rfl; exact ⟨t, _, rfl, widen% ht⟩)
    | (rename_i ih _; obtain ⟨t, ts, rfl, ht⟩ := ih _ rfl; exact ⟨t, _, rfl, widen% ht⟩)
    | (rename_i ih _ _; obtain ⟨t, ts, rfl, ht⟩ := ih _ rfl; exact ⟨t, _, rfl, widen% ht⟩)

/-! ## The rules -/

section
variable {r : Rules}

/-- Undo the steps of a rule. -/
macro "steps" " at " h:ident : tactic => `(tactic|
  simp only [Option.bind_eq_bind, Option.bind_eq_some_iff, Prod.exists, Option.some.injEq, Prod.mk.injEq] at $h:ident)

theorem exprP_whole (hr : Sound r) {c ts e rest} (h : exprP r c 0 ts = some (e, rest)) : Took .whole c ts e rest := by
  unfold exprP at h
  split at h
  · steps at h
    obtain ⟨e, us, h1, rfl, rfl⟩ := h
    obtain ⟨vs, rfl, hv⟩ := hr.whole h1
    exact ⟨_ :: vs, rfl, .return_ hv⟩
  · next h5 => cases h5
  · steps at h
    obtain ⟨e, us, h1, h2⟩ := h
    obtain ⟨vs, rfl, hv⟩ := hr.expr (by omega) h1
    obtain ⟨ws, hx, hw⟩ := hr.bin (by omega) (.up (by omega) hv) h2
    exact ⟨ws, hx, .whole hw⟩

theorem exprP_expr (hr : Sound r) {c l ts e rest} (hl : l ≤ 4) (h : exprP r c (l + 1) ts = some (e, rest)) :
    Took (.expr (l + 1)) c ts e rest := by
  unfold exprP at h
  split at h
  · next h0 => cases h0
  · next h5 =>
    cases h5
    steps at h
    obtain ⟨e, us, h1, h2⟩ := h
    obtain ⟨vs, rfl, hv⟩ := hr.unary h1
    obtain ⟨ws, hx, hw⟩ := hr.cast (.unary hv) h2
    exact ⟨ws, hx, hw⟩
  · next h5 _ =>
    steps at h
    obtain ⟨e, us, h1, h2⟩ := h
    have hl' : l + 1 ≤ 4 := by
      rcases Nat.lt_or_ge l 4 with h | h
      · omega
      · have : l = 4 := by omega
        subst this
        exact absurd rfl h5
    obtain ⟨vs, rfl, hv⟩ := hr.expr hl' h1
    obtain ⟨ws, hx, hw⟩ := hr.bin hl' (.up hl' hv) h2
    exact ⟨ws, hx, hw⟩

theorem infix_some {o : Op} {m : Nat} {b : BinOp} (h : infixOp o = some (m, b)) : o = b.op ∧ m = b.strength := by
  cases o <;> simp only [infixOp] at h <;> cases h <;> exact ⟨rfl, rfl⟩

theorem binP_sound (hr : Sound r) {c l us a ts e rest} (hl : l ≤ 4) (ha : Phrase (.expr l) c us a)
    (h : binP r c l a ts = some (e, rest)) : ∃ vs, us ++ ts = vs ++ rest ∧ Phrase (.expr l) c vs e := by
  have stop : ∀ {ts}, some (a, ts) = some (e, rest) → ∃ vs, us ++ ts = vs ++ rest ∧ Phrase (.expr l) c vs e := by
    intro ts h
    cases h
    exact ⟨us, rfl, ha⟩
  unfold binP at h
  split at h
  · split at h
    · next ho =>
      split at h
      · next hb =>
        have hm := Nat.eq_of_beq_eq_true hb
        obtain ⟨rfl, rfl⟩ := infix_some ho
        subst hm
        steps at h
        obtain ⟨e, vs, h1, h2⟩ := h
        obtain ⟨ws, rfl, hw⟩ := hr.expr hl h1
        obtain ⟨xs, he, hx⟩ := hr.bin hl (.bin _ ha hw) h2
        exact ⟨xs, by simpa using he, hx⟩
      · exact stop h
    · exact stop h
  · exact stop h

theorem castP_sound (hr : Sound r) {c us a ts e rest} (ha : Phrase (.expr 5) c us a)
    (h : castP r c a ts = some (e, rest)) : ∃ vs, us ++ ts = vs ++ rest ∧ Phrase (.expr 5) c vs e := by
  unfold castP at h
  split at h
  · steps at h
    obtain ⟨t, vs, h1, h2⟩ := h
    obtain ⟨ws, rfl, hw⟩ := hr.ty h1
    obtain ⟨xs, he, hx⟩ := hr.cast (.cast ha hw) h2
    exact ⟨xs, by simpa using he, hx⟩
  · cases h
    exact ⟨us, rfl, ha⟩

theorem postP_sound (hr : Sound r) {c us a ts e rest} (ha : Phrase .post c us a)
    (h : postP r c a ts = some (e, rest)) : ∃ vs, us ++ ts = vs ++ rest ∧ Phrase .post c vs e := by
  unfold postP at h
  split at h
  · obtain ⟨xs, he, hx⟩ := hr.post (.question ha) h
    exact ⟨xs, by simpa using he, hx⟩
  · obtain ⟨xs, he, hx⟩ := hr.post (.unwrap ha) h
    exact ⟨xs, by simpa using he, hx⟩
  · obtain ⟨xs, he, hx⟩ := hr.post (.expect ha) h
    exact ⟨xs, by simpa using he, hx⟩
  · steps at h
    obtain ⟨i, hi, b, vs, h1, ws, h2, h3⟩ := h
    obtain ⟨bs, rfl, hb⟩ := hr.whole h1
    have := want_some h2
    subst this
    obtain ⟨xs, he, hx⟩ := hr.post (.unwrapOrElse ha hi hb) h3
    exact ⟨xs, by simpa using he, hx⟩
  · obtain ⟨xs, he, hx⟩ := hr.post (.into ha) h
    exact ⟨xs, by simpa using he, hx⟩
  · steps at h
    obtain ⟨as, vs, h1, h2⟩ := h
    split at h2
    · obtain ⟨ws, rfl, hw⟩ := hr.args h1
      obtain ⟨xs, he, hx⟩ := hr.post (.pow ha hw) h2
      exact ⟨xs, by simpa using he, hx⟩
    · cases h2
  · steps at h
    obtain ⟨i, hi, as, vs, h1, h2⟩ := h
    obtain ⟨ws, rfl, hw⟩ := hr.args h1
    obtain ⟨xs, he, hx⟩ := hr.post (.method ha hi hw) h2
    exact ⟨xs, by simpa using he, hx⟩
  · steps at h
    obtain ⟨i, hi, h2⟩ := h
    obtain ⟨xs, he, hx⟩ := hr.post (.field ha hi) h2
    exact ⟨xs, by simpa using he, hx⟩
  · cases h
    exact ⟨us, rfl, ha⟩

theorem argsP_sound (hr : Sound r) {c o ts es rest} (h : argsP r c o ts = some (es, rest)) :
    Took (.args o) c ts es rest := by
  unfold argsP at h
  split at h
  · next hw =>
    cases h
    exact ⟨[.op o], want_some hw, .args0⟩
  · steps at h
    obtain ⟨e, us, h1, h2⟩ := h
    obtain ⟨vs, rfl, hv⟩ := hr.whole h1
    split at h2
    · steps at h2
      obtain ⟨es, ws, h3, rfl, rfl⟩ := h2
      obtain ⟨xs, rfl, hx⟩ := hr.args h3
      exact ⟨_, by simp, .argsMore hv hx⟩
    · steps at h2
      obtain ⟨ws, h3, rfl, rfl⟩ := h2
      have := want_some h3
      subst this
      exact ⟨_, by simp, .args1 hv⟩

theorem blockP_sound (hr : Sound r) {c ts e rest} (h : blockP r c ts = some (e, rest)) : Took .block c ts e rest := by
  unfold blockP at h
  steps at h
  obtain ⟨us, h1, ss, vs, h2, rfl, rfl⟩ := h
  have := want_some h1
  subst this
  obtain ⟨ws, rfl, hw⟩ := hr.stmts h2
  exact ⟨_ :: ws, rfl, .block hw⟩

theorem identP_some {ts : List Tok} {i : Id} {us : List Tok} (h : identP ts = some (i, us)) :
    ∃ x, ts = .name x :: us ∧ ident x = some i := by
  unfold identP at h
  split at h
  · split at h
    · next hi => cases h; exact ⟨_, rfl, hi⟩
    · cases h
  · cases h

theorem front {us vs rest : List Tok} {t : Tok} (hn : us ≠ []) (h : t :: vs = us ++ rest) : ∃ ws, us = t :: ws := by
  cases us with
  | nil => exact absurd rfl hn
  | cons u us => cases h; exact ⟨us, rfl⟩

theorem fields_close {c : Ctx} {us vs : List Tok} {fs : Fields} (h : Phrase .fields c us fs)
    (he : us = .op .rbrace :: vs) : us = [.op .rbrace] ∧ fs = .nil := by
  cases h with
  | fields0 => exact ⟨rfl, rfl⟩
  | fieldLast => cases he
  | fieldMore => cases he

theorem fieldsP_sound (hr : Sound r) {c ts fs rest} (h : fieldsP r c ts = some (fs, rest)) :
    Took .fields c ts fs rest := by
  unfold fieldsP at h
  split at h
  · cases h
    exact ⟨[_], rfl, .fields0⟩
  · steps at h
    obtain ⟨i, us, h1, vs, h2, e, ws, h3, xs, h4, fs, ys, h5, rfl, rfl⟩ := h
    obtain ⟨x, rfl, hi⟩ := identP_some h1
    have := want_some h2
    subst this
    obtain ⟨as, rfl, ha⟩ := hr.whole h3
    obtain ⟨bs, rfl, hb⟩ := hr.fields h5
    rcases sep_some h4 with rfl | ⟨rfl, zs, hz⟩
    · exact ⟨_, by simp, .fieldMore hi ha hb⟩
    · obtain ⟨zs, hz⟩ := front (phrase_ne_nil hb (by simp) (by simp) (by simp)) hz.symm
      obtain ⟨rfl, rfl⟩ := fields_close hb hz
      exact ⟨_, by simp, .fieldLast hi ha⟩

theorem tyArgs_sound (hr : Sound r) {c ts as rest} (h : tyArgs r c ts = some (as, rest)) :
    Took .tyArgs c ts as rest := by
  unfold tyArgs at h
  split at h
  · steps at h
    obtain ⟨t, us, h1, h2⟩ := h
    obtain ⟨vs, rfl, hv⟩ := hr.ty h1
    split at h2
    · cases h2
      exact ⟨_, by simp, .tyArgs1 hv⟩
    · steps at h2
      obtain ⟨u, ws, h3, xs, h4, rfl, rfl⟩ := h2
      obtain ⟨ys, rfl, hy⟩ := hr.ty h3
      have := want_some h4
      subst this
      exact ⟨_, by simp, .tyArgs2 hv hy⟩
    · cases h2
  · cases h
    exact ⟨[], rfl, .tyArgs0⟩

theorem tyRefs {c : Ctx} {t : Ty} : ∀ {rs us : List Tok}, Refs rs → Phrase .ty c us t → Phrase .ty c (rs ++ us) t
  | [], _, _, h => h
  | r :: _, _, hr, h =>
    .tyRef (hr r (List.mem_cons_self ..)) (tyRefs (fun t ht => hr t (List.mem_cons_of_mem _ ht)) h)

theorem tyP_sound (hr : Sound r) {c ts t rest} (h : tyP r c ts = some (t, rest)) : Took .ty c ts t rest := by
  obtain ⟨rs, hrs, he⟩ := skipRefs_took ts
  unfold tyP at h
  suffices Took .ty c (skipRefs ts) t rest by
    obtain ⟨us, h1, h2⟩ := this
    exact ⟨rs ++ us, by rw [List.append_assoc, ← h1]; exact he, tyRefs hrs h2⟩
  clear he
  revert h
  generalize skipRefs ts = ts
  intro h
  split at h
  · steps at h
    obtain ⟨t, us, h1, vs, h2, rfl, rfl⟩ := h
    obtain ⟨ws, rfl, hw⟩ := hr.ty h1
    have := want_some h2
    subst this
    exact ⟨_, by simp, .tyArray hw⟩
  · cases h
    exact ⟨[_, _, _], rfl, .tySelfMember⟩
  · cases h
    exact ⟨[_], rfl, .tySelf⟩
  · cases h
    exact ⟨[_, _, _, _, _], rfl, .tyLocation⟩
  · obtain ⟨ws, rfl, hw⟩ := hr.ty h
    exact ⟨_ :: _ :: ws, rfl, .tyPath hw⟩
  · steps at h
    obtain ⟨as, us, h1, rfl, rfl⟩ := h
    obtain ⟨ws, rfl, hw⟩ := tyArgs_sound hr h1
    exact ⟨_ :: ws, rfl, .tyName hw⟩
  · cases h

theorem segsP_sound (hr : Sound r) {c ts ms rest} (h : segsP r ts = some (ms, rest)) : Took .segs c ts ms rest := by
  unfold segsP at h
  split at h
  · steps at h
    obtain ⟨ms, us, h1, rfl, rfl⟩ := h
    obtain ⟨ws, rfl, hw⟩ := hr.segs (c := c) h1
    exact ⟨_ :: _ :: ws, rfl, .segsMore hw⟩
  · cases h
    exact ⟨[_, _], rfl, .segsFrom⟩
  · cases h
    exact ⟨[], rfl, .segs0⟩

theorem path_sound (hr : Sound r) {c ts n ms rest} (h : path r c ts = some ((n, ms), rest)) :
    Took .path c ts (n, ms) rest := by
  unfold path at h
  split at h
  · steps at h
    obtain ⟨ms, us, h1, ⟨rfl, rfl⟩, rfl⟩ := h
    obtain ⟨ws, rfl, hw⟩ := hr.segs (c := c) h1
    exact ⟨_ :: ws, rfl, .path hw⟩
  · steps at h
    obtain ⟨n, hn, ms, us, h1, ⟨rfl, rfl⟩, rfl⟩ := h
    obtain ⟨ws, rfl, hw⟩ := hr.segs (c := c) h1
    exact ⟨_ :: ws, rfl, .pathSelf hn hw⟩
  · cases h

theorem ctorP_sound (hr : Sound r) {c us ts t v p rest} (hu : Phrase .ctor c us (t, v))
    (h : pat1.ctorP r c t v ts = some (p, rest)) : ∃ vs, us ++ ts = vs ++ rest ∧ Phrase .pat1 c vs p := by
  unfold pat1.ctorP at h
  split at h
  · steps at h
    obtain ⟨p, vs, h1, ws, h2, rfl, rfl⟩ := h
    obtain ⟨xs, rfl, hx⟩ := hr.pat h1
    obtain ⟨bs, hb, he⟩ := eat_opt (ts := vs)
    rw [want_some h2] at he
    rw [he]
    exact ⟨_, by simp, .patCtor1 hu hx hb⟩
  · cases h
    exact ⟨us, rfl, .patCtor hu⟩

theorem pat1_sound (hr : Sound r) {c ts p rest} (h : pat1 r c ts = some (p, rest)) : Took .pat1 c ts p rest := by
  unfold pat1 at h
  split at h
  · cases h
    exact ⟨[_, _, _], rfl, .patRange⟩
  · cases h
    exact ⟨[_], rfl, .patLit⟩
  · cases h
    exact ⟨[_], rfl, .patWild⟩
  · steps at h
    obtain ⟨n, ms, us, h1, i, hi, h2⟩ := h
    obtain ⟨ws, rfl, hw⟩ := path_sound hr h1
    split at h2
    · next hp =>
      cases h2
      exact ⟨ws, rfl, .patVar hw hi hp⟩
    · next hp =>
      exact ctorP_sound hr (.ctorPrelude hw hi hp) h2
    · steps at h2
      obtain ⟨j, hj, h3⟩ := h2
      exact ctorP_sound hr (.ctor hw hi hj) h3
    · cases h2

theorem patP_sound (hr : Sound r) {c ts p rest} (h : patP r c ts = some (p, rest)) : Took .pat c ts p rest := by
  unfold patP at h
  steps at h
  obtain ⟨p, us, h1, h2⟩ := h
  obtain ⟨bs, hb, he⟩ := eat_bar (ts := ts)
  obtain ⟨ws, hw, hp⟩ := pat1_sound hr h1
  rw [he, hw]
  split at h2
  · steps at h2
    obtain ⟨q, vs, h3, rfl, rfl⟩ := h2
    obtain ⟨xs, rfl, hx⟩ := hr.pat h3
    exact ⟨_, by simp, .patOr hb hp hx⟩
  · cases h2
    exact ⟨_, by simp, .pat hb hp⟩

theorem pathExpr_sound (hr : Sound r) {c us ts n ms e rest} (hu : Phrase .path c us (n, ms))
    (h : pathExpr r c n ms ts = some (e, rest)) : ∃ vs, us ++ ts = vs ++ rest ∧ Phrase .prim c vs e := by
  unfold pathExpr at h
  split at h
  · steps at h
    obtain ⟨as, vs, h1, e, h2, rfl, rfl⟩ := h
    obtain ⟨ws, rfl, hw⟩ := hr.args h1
    exact ⟨_, by simp, .call hu hw h2⟩
  · steps at h
    obtain ⟨i, hi, h1⟩ := h
    split at h1
    · next hs _ =>
      steps at h1
      obtain ⟨fs, ws, h2, rfl, rfl⟩ := h1
      obtain ⟨xs, rfl, hx⟩ := hr.fields h2
      exact ⟨_, by simp, .struct hs hu hi hx⟩
    · split at h1
      · cases h1
        exact ⟨us, rfl, .none_ hu hi⟩
      · next hn =>
        cases h1
        exact ⟨us, rfl, .var hu hi hn⟩
    · steps at h1
      obtain ⟨j, hj, rfl, rfl⟩ := h1
      exact ⟨us, rfl, .variant hu hi hj⟩
    · cases h1

theorem args_close {c : Ctx} {o : Op} {us vs : List Tok} {es : List Expr} (h : Phrase (.args o) c us es)
    (ho : firstWhole (.op o) = false) (he : us = .op o :: vs) : us = [.op o] ∧ es = [] := by
  cases h with
  | args0 => exact ⟨rfl, rfl⟩
  | args1 h =>
    obtain ⟨t, ts, rfl, ht⟩ := phrase_first h _ rfl
    cases he
    rw [ho] at ht; cases ht
  | argsMore h =>
    obtain ⟨t, ts, rfl, ht⟩ := phrase_first h _ rfl
    cases he
    rw [ho] at ht; cases ht

theorem primary_sound (hr : Sound r) {c ts e rest} (h : primary r c ts = some (e, rest)) : Took .prim c ts e rest := by
  unfold primary at h
  split at h
  · cases h; exact ⟨[_], rfl, .num⟩
  · cases h; exact ⟨[_], rfl, .numTyped⟩
  · cases h; exact ⟨[_], rfl, .str⟩
  · steps at h
    obtain ⟨e, us, h1, vs, h2, rfl, rfl⟩ := h
    obtain ⟨ws, rfl, hw⟩ := hr.whole h1
    have := want_some h2
    subst this
    exact ⟨_, by simp, .paren hw⟩
  · steps at h
    obtain ⟨es, us, h1, rfl, rfl⟩ := h
    obtain ⟨ws, rfl, hw⟩ := hr.args h1
    exact ⟨_ :: ws, rfl, .array hw⟩
  · obtain ⟨ws, he, hw⟩ := blockP_sound hr h
    exact ⟨ws, he, .blockExpr hw⟩
  · steps at h
    obtain ⟨b, us, h1, e, vs, h2, h3⟩ := h
    obtain ⟨ws, rfl, hw⟩ := hr.whole h1
    obtain ⟨xs, rfl, hx⟩ := blockP_sound hr h2
    split at h3
    · steps at h3
      obtain ⟨f, ys, h4, rfl, rfl⟩ := h3
      obtain ⟨zs, rfl, hz⟩ := blockP_sound hr h4
      exact ⟨_, by simp, .ifElse hw hx hz⟩
    · cases h3
      exact ⟨_, by simp, .ifThen hw hx⟩
  · steps at h
    obtain ⟨e, us, h1, vs, h2, as, ws, h3, rfl, rfl⟩ := h
    obtain ⟨xs, rfl, hx⟩ := hr.whole h1
    have := want_some h2
    subst this
    obtain ⟨ys, rfl, hy⟩ := hr.arms h3
    exact ⟨_, by simp, .match_ hx hy⟩
  · cases h; exact ⟨[_], rfl, .true_⟩
  · cases h; exact ⟨[_], rfl, .false_⟩
  · steps at h
    obtain ⟨us, h1, rfl, rfl⟩ := h
    obtain ⟨vs, rfl, hv⟩ := skipParens_took h1
    exact ⟨_ :: _ :: _ :: vs, rfl, .unreachable hv⟩
  · steps at h
    obtain ⟨us, h1, rfl, rfl⟩ := h
    obtain ⟨vs, rfl, hv⟩ := skipParens_took h1
    exact ⟨_ :: _ :: _ :: vs, rfl, .panic hv⟩
  · steps at h
    obtain ⟨e, us, h1, vs, h2, p, ws, h3, xs, h4, rfl, rfl⟩ := h
    obtain ⟨ys, rfl, hy⟩ := hr.whole h1
    have := want_some h2
    subst this
    obtain ⟨zs, rfl, hz⟩ := hr.pat h3
    have := want_some h4
    subst this
    exact ⟨_, by simp, .matches_ hy hz⟩
  · cases h; exact ⟨[_, _, _, _, _, _, _, _, _], rfl, .caller⟩
  · steps at h
    obtain ⟨us, h1, es, vs, h2, ss, h3, ps, h4, rfl, rfl⟩ := h
    obtain ⟨ws, rfl, hw⟩ := hr.args h2
    rcases sep_some h1 with rfl | ⟨rfl, xs, hx⟩
    · exact ⟨_ :: _ :: _ :: _ :: _ :: _ :: _ :: ws, rfl, .write hw (cut_sound (acc := []) (b := false) (fun _ h => nomatch h) h3) (pieces_sound h4)⟩
    · obtain ⟨zs, hz⟩ := front (phrase_ne_nil hw (by simp) (by simp) (by simp)) hx.symm
      obtain ⟨rfl, rfl⟩ := args_close hw rfl hz
      exact ⟨[_, _, _, _, _, _, _], rfl, .write0 (cut_sound (acc := []) (b := false) (fun _ h => nomatch h) h3) (pieces_sound h4)⟩
  · steps at h
    obtain ⟨n, ms, us, h1, h2⟩ := h
    obtain ⟨ws, rfl, hw⟩ := path_sound hr h1
    exact pathExpr_sound hr hw h2

theorem unaryP_sound (hr : Sound r) {c ts e rest} (h : unaryP r c ts = some (e, rest)) : Took .unary c ts e rest := by
  unfold unaryP at h
  split at h
  · obtain ⟨ws, rfl, hw⟩ := hr.unary h
    exact ⟨_ :: ws, rfl, .ref hw⟩
  · obtain ⟨ws, rfl, hw⟩ := hr.unary h
    exact ⟨_ :: ws, rfl, .deref hw⟩
  · steps at h
    obtain ⟨e, us, h1, rfl, rfl⟩ := h
    obtain ⟨ws, rfl, hw⟩ := hr.unary h1
    exact ⟨_ :: ws, rfl, .neg hw⟩
  · steps at h
    obtain ⟨e, us, h1, h2⟩ := h
    obtain ⟨ws, rfl, hw⟩ := primary_sound hr h1
    obtain ⟨xs, he, hx⟩ := hr.post (.prim hw) h2
    exact ⟨xs, he, .post hx⟩

theorem blocky_first {us vs : List Tok} (hn : us ≠ []) (h : blockFirst (us ++ vs) = true) : Blocky us := by
  cases us with
  | nil => exact absurd rfl hn
  | cons u us =>
    unfold blockFirst at h
    split at h
    · next he => cases he; exact ⟨_, Or.inl rfl⟩
    · next he => cases he; exact ⟨_, Or.inr (Or.inl rfl)⟩
    · next he => cases he; exact ⟨_, Or.inr (Or.inr rfl)⟩
    · cases h

theorem not_blocky {us vs : List Tok} (h : blockFirst (us ++ vs) = false) : ¬ Blocky us := by
  rintro ⟨ws, rfl | rfl | rfl⟩ <;> cases h

theorem arms_close {c : Ctx} {us vs : List Tok} {as : Arms} (h : Phrase .arms c us as)
    (he : us = .op .rbrace :: vs) : us = [.op .rbrace] ∧ as = .nil := by
  cases h with
  | arms0 => exact ⟨rfl, rfl⟩
  | armBlock h | armLast h | armMore h =>
    obtain ⟨t, ts, rfl, ht⟩ := phrase_first h _ rfl
    cases he
    cases ht

theorem armsP_sound (hr : Sound r) {c ts as rest} (h : armsP r c ts = some (as, rest)) : Took .arms c ts as rest := by
  unfold armsP at h
  split at h
  · cases h; exact ⟨[_], rfl, .arms0⟩
  · steps at h
    obtain ⟨p, us, h1, vs, h2, e, ws, h3, as, xs, h4, rfl, rfl⟩ := h
    obtain ⟨ps, rfl, hp⟩ := hr.pat h1
    have := want_some h2
    subst this
    obtain ⟨qs, rfl, hq⟩ := hr.arms h4
    unfold armP at h3
    split at h3
    · next hb =>
      steps at h3
      obtain ⟨e, ys, h5, rfl, h6⟩ := h3
      obtain ⟨zs, rfl, hz⟩ := primary_sound hr h5
      obtain ⟨bs, hbs, he⟩ := eat_opt (ts := ys)
      have hB := blocky_first (phrase_ne_nil hz (by simp) (by simp) (by simp)) hb
      rw [he, h6]
      exact ⟨_, by simp, .armBlock hp hB hz hbs hq⟩
    · next hb =>
      steps at h3
      obtain ⟨e, ys, h5, zs, h6, rfl, rfl⟩ := h3
      obtain ⟨as', rfl, ha⟩ := hr.whole h5
      rcases sep_some h6 with rfl | ⟨rfl, xs', hx⟩
      · exact ⟨_, by simp, .armMore hp (not_blocky hb) ha hq⟩
      · obtain ⟨zs, hz⟩ := front (phrase_ne_nil hq (by simp) (by simp) (by simp)) hx.symm
        obtain ⟨rfl, rfl⟩ := arms_close hq hz
        exact ⟨_, by simp, .armLast hp (not_blocky hb) ha⟩

theorem annot_sound (hr : Sound r) {c ts t rest} (h : annot r c ts = some (t, rest)) : Took .annot c ts t rest := by
  unfold annot at h
  split at h
  · obtain ⟨ws, rfl, hw⟩ := hr.ty h
    exact ⟨_ :: ws, rfl, .annot hw⟩
  · cases h; exact ⟨[], rfl, .annot0⟩

theorem params_close {c : Ctx} {us vs : List Tok} {ps : List (Id × Ty)} (h : Phrase .params c us ps)
    (he : us = .op .bar :: vs) : us = [.op .bar] ∧ ps = [] := by
  cases h with
  | params0 => exact ⟨rfl, rfl⟩
  | paramLast => cases he
  | paramMore => cases he

theorem closureParams_sound (hr : Sound r) {c rest} : ∀ {n ts ps}, closureParams r c n ts = some (ps, rest) →
    Took .params c ts ps rest
  | 0, ts, ps, h => by
    unfold closureParams at h
    split at h
    · cases h; exact ⟨[_], rfl, .params0⟩
    · next h0 => cases h0
    · cases h
  | n + 1, ts, ps, h => by
    unfold closureParams at h
    split at h
    · cases h; exact ⟨[_], rfl, .params0⟩
    · next h0 =>
      cases h0
      steps at h
      obtain ⟨i, hi, t, us, h1, vs, h2, ps, ws, h3, rfl, rfl⟩ := h
      obtain ⟨xs, rfl, hx⟩ := hr.ty h1
      obtain ⟨ys, rfl, hy⟩ := closureParams_sound hr h3
      rcases sep_some h2 with rfl | ⟨rfl, zs, hz⟩
      · exact ⟨_, by simp, .paramMore hi hx hy⟩
      · obtain ⟨zs, hz⟩ := front (phrase_ne_nil hy (by simp) (by simp) (by simp)) hz.symm
        obtain ⟨rfl, rfl⟩ := params_close hy hz
        exact ⟨_, by simp, .paramLast hi hx⟩
    · cases h

theorem sidesP_sound (hr : Sound r) {c ts a b rest} (h : sidesP r c ts = some ((a, b), rest)) :
    Took .sides c ts (a, b) rest := by
  unfold sidesP at h
  steps at h
  obtain ⟨a, us, h1, vs, h2, b, ws, h3, h4⟩ := h
  obtain ⟨as, rfl, ha⟩ := hr.whole h1
  have := want_some h2
  subst this
  obtain ⟨bs, rfl, hb⟩ := hr.whole h3
  split at h4
  · steps at h4
    obtain ⟨xs, h4, ys, h5, ⟨rfl, rfl⟩, rfl⟩ := h4
    obtain ⟨zs, rfl, hz⟩ := skipParens_took h4
    have := want_some h5
    subst this
    exact ⟨_, by simp, .sidesMessage ha hb hz⟩
  · steps at h4
    obtain ⟨xs, h4, ys, h5, ⟨rfl, rfl⟩, rfl⟩ := h4
    have := want_some h4
    subst this
    have := want_some h5
    subst this
    exact ⟨_, by simp, .sides ha hb⟩

theorem bareP_sound (hr : Sound r) {c ts ss rest} (h : bareP r c ts = some (ss, rest)) : Took .bare c ts ss rest := by
  unfold bareP at h
  split at h
  · cases h; exact ⟨[_], rfl, .finish⟩
  · steps at h
    obtain ⟨us, h1, h2⟩ := h
    obtain ⟨vs, rfl, hv⟩ := skipTo_took h1
    obtain ⟨ws, rfl, hw⟩ := hr.stmts h2
    exact ⟨_, by simp, .use hv hw⟩
  · next ts =>
    obtain ⟨rs, hrs, he⟩ := skipRefs_took ts
    rw [he]
    split at h
    · next hs =>
      rw [hs]
      steps at h
      obtain ⟨x, hx, o, ho, ps, us, h1, b, vs, h2, ws, h3, ss, xs, h4, rfl, rfl⟩ := h
      obtain ⟨as, rfl, ha⟩ := closureParams_sound hr h1
      obtain ⟨bs, rfl, hb⟩ := hr.whole h2
      have := want_some h3
      subst this
      obtain ⟨cs, rfl, hc⟩ := hr.stmts h4
      exact ⟨_, by simp, .letFn hrs hx ho ha hb hc⟩
    · next hs =>
      rw [hs]
      steps at h
      obtain ⟨x, hx, b, vs, h2, ws, h3, ss, xs, h4, rfl, rfl⟩ := h
      obtain ⟨bs, rfl, hb⟩ := hr.whole h2
      have := want_some h3
      subst this
      obtain ⟨cs, rfl, hc⟩ := hr.stmts h4
      exact ⟨_, by simp, .letClosure hrs hx hb hc⟩
    · steps at h
      obtain ⟨i, us, h1, t, vs, h2, ws, h3, e, xs, h4, ys, h5, ss, zs, h6, rfl, rfl⟩ := h
      obtain ⟨x, hx, hi⟩ := identP_some h1
      obtain ⟨as, rfl, ha⟩ := annot_sound hr h2
      have := want_some h3
      subst this
      obtain ⟨bs, rfl, hb⟩ := hr.whole h4
      have := want_some h5
      subst this
      obtain ⟨cs, rfl, hc⟩ := hr.stmts h6
      rw [hx]
      exact ⟨_, by simp, .let_ hrs hi ha hb hc⟩
  · steps at h
    obtain ⟨e, us, h1, vs, h2, ws, h3, ss, xs, h4, rfl, rfl⟩ := h
    obtain ⟨bs, rfl, hb⟩ := hr.whole h1
    have := want_some h2
    subst this
    have := want_some h3
    subst this
    obtain ⟨cs, rfl, hc⟩ := hr.stmts h4
    exact ⟨_, by simp, .assert hb hc⟩
  · steps at h
    obtain ⟨a, b, us, h1, ss, vs, h2, rfl, rfl⟩ := h
    obtain ⟨bs, rfl, hb⟩ := sidesP_sound hr h1
    obtain ⟨cs, rfl, hc⟩ := hr.stmts h2
    exact ⟨_, by simp, .assertEq hb hc⟩
  · steps at h
    obtain ⟨a, b, us, h1, ss, vs, h2, rfl, rfl⟩ := h
    obtain ⟨bs, rfl, hb⟩ := sidesP_sound hr h1
    obtain ⟨cs, rfl, hc⟩ := hr.stmts h2
    exact ⟨_, by simp, .assertNe hb hc⟩
  · steps at h
    obtain ⟨i, hi, m, hm, v, hv, x, hx, e, us, h1, vs, h2, ws, h3, ss, ys, h4, rfl, rfl⟩ := h
    obtain ⟨bs, rfl, hb⟩ := hr.whole h1
    have := want_some h2
    subst this
    have := want_some h3
    subst this
    obtain ⟨cs, rfl, hc⟩ := hr.stmts h4
    exact ⟨_, by simp, .forRevEnum hi hm hv hx hb hc⟩
  · split at h
    · next hb =>
      steps at h
      obtain ⟨e, us, h1, h2⟩ := h
      obtain ⟨ps, rfl, hp⟩ := primary_sound hr h1
      have hB := blocky_first (phrase_ne_nil hp (by simp) (by simp) (by simp)) hb
      split at h2
      · cases h2
        exact ⟨_, by simp, .blockLast hB hp⟩
      · steps at h2
        obtain ⟨ss, ys, h4, rfl, rfl⟩ := h2
        obtain ⟨cs, rfl, hc⟩ := hr.stmts h4
        exact ⟨_, by simp, .blockSemi hB hp hc⟩
      · next hn _ =>
        steps at h2
        obtain ⟨ss, ys, h4, rfl, rfl⟩ := h2
        obtain ⟨cs, rfl, hc⟩ := hr.stmts h4
        refine ⟨_, by simp, .blockMore hB hp ?_ hc⟩
        rintro rfl
        exact hn _ rfl
    · next hb =>
      steps at h
      obtain ⟨e, us, h1, h2⟩ := h
      obtain ⟨ps, rfl, hp⟩ := hr.whole h1
      have hB := not_blocky hb
      split at h2
      · cases h2
        exact ⟨_, by simp, .exprLast hB hp⟩
      · steps at h2
        obtain ⟨ss, ys, h4, rfl, rfl⟩ := h2
        obtain ⟨cs, rfl, hc⟩ := hr.stmts h4
        exact ⟨_, by simp, .exprSemi hB hp hc⟩
      · cases h2

theorem stmtsP_sound (hr : Sound r) {c ts ss rest} (h : stmtsP r c ts = some (ss, rest)) :
    Took .stmts c ts ss rest := by
  unfold stmtsP at h
  steps at h
  obtain ⟨us, h1, h2⟩ := h
  obtain ⟨as, rfl, ha⟩ := skipAttrs_took h1
  obtain ⟨vs, rfl, hv⟩ := bareP_sound hr h2
  exact ⟨_, by simp, .stmts ha hv⟩

end

/-- However deep they may nest, the rules only read phrases of the grammar. -/
theorem rules_sound : ∀ n, Sound (rules n)
  | 0 => by constructor <;> intros <;> simp_all [rules]
  | n + 1 =>
    have hr := rules_sound n
    { whole := exprP_whole hr
      expr := exprP_expr hr
      bin := binP_sound hr
      cast := castP_sound hr
      unary := unaryP_sound hr
      post := postP_sound hr
      args := argsP_sound hr
      arms := armsP_sound hr
      fields := fieldsP_sound hr
      stmts := stmtsP_sound hr
      pat := patP_sound hr
      ty := tyP_sound hr
      segs := segsP_sound hr }

end Raki.Source
