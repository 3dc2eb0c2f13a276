import Verif.Source.GrammarComplete
import Verif.Source.ItemsSound
/-!
# The reader reads every file of the grammar
-/

set_option linter.constructorNameAsVariable false

namespace Raki.Source

theorem skipBraces_closes : ∀ {d : Nat} {us : List Tok} (rest : List Tok), Closes .lbrace .rbrace (d + 1) us →
    skipBraces (d + 1) (us ++ rest) = some rest := by
  suffices ∀ (us rest : List Tok) (d : Nat), Closes .lbrace .rbrace (d + 1) us →
    skipBraces (d + 1) (us ++ rest) = some rest from fun {d us} rest h => this us rest d h
  intro us
  induction us with
  | nil => intro rest d h; cases h
  | cons t us ih =>
    intro rest d h
    cases h with
    | enter h =>
      have := ih rest _ h
      cases d <;> simpa [skipBraces] using this
    | leave h =>
      cases d with
      | zero => cases h; rfl
      | succ d => simpa [skipBraces] using ih rest _ h
    | other hl hr h =>
      have := ih rest _ h
      rw [List.cons_append, skipBraces, this]
      all_goals intros; first | exact hl ‹_› | exact hr ‹_›

theorem skipBrackets_closes : ∀ {d : Nat} {us : List Tok} (rest : List Tok), Closes .lbrack .rbrack (d + 1) us →
    skipBrackets (d + 1) (us ++ rest) = some rest := by
  suffices ∀ (us rest : List Tok) (d : Nat), Closes .lbrack .rbrack (d + 1) us →
    skipBrackets (d + 1) (us ++ rest) = some rest from fun {d us} rest h => this us rest d h
  intro us
  induction us with
  | nil => intro rest d h; cases h
  | cons t us ih =>
    intro rest d h
    cases h with
    | enter h =>
      have := ih rest _ h
      cases d <;> simpa [skipBrackets] using this
    | leave h =>
      cases d with
      | zero => cases h; rfl
      | succ d => simpa [skipBrackets] using ih rest _ h
    | other hl hr h =>
      have := ih rest _ h
      rw [List.cons_append, skipBrackets, this]
      all_goals intros; first | exact hl ‹_› | exact hr ‹_›

theorem derivesP_complete {us : List Tok} {ds : List Derive} (h : Derives us ds) (rest : List Tok) :
    derivesP (us ++ rest) = some (ds, rest) := by
  induction h with
  | nil => rfl
  | last hd => simp [derivesP, hd]
  | more hd _ ih => simp [derivesP, hd, ih]

theorem closes_other {l r : Op} {d : Nat} {t : Tok} {us rest vs : List Tok} (hl : t ≠ .op l) (hr : t ≠ .op r)
    (h : Closes l r (d + 1) us) (he : us ++ rest = t :: vs) :
    ∃ us', us = t :: us' ∧ us' ++ rest = vs ∧ Closes l r (d + 1) us' := by
  cases h with
  | enter => cases he; exact absurd rfl hl
  | leave => cases he; exact absurd rfl hr
  | other _ _ h => cases he; exact ⟨_, rfl, rfl, h⟩

theorem closes_end {l r : Op} {us rest vs : List Tok} (hlr : l ≠ r) (h : Closes l r 1 us)
    (he : us ++ rest = .op r :: vs) : us = [.op r] := by
  cases h with
  | enter => cases he; exact absurd rfl hlr
  | leave h => cases h; rfl
  | other _ h => cases he; exact absurd rfl h

theorem closes_derive {us rest vs : List Tok} (h : Closes .lbrack .rbrack 1 us)
    (he : us ++ rest = .kw .derive :: .op .lparen :: vs) : ∃ vs, us = .kw .derive :: .op .lparen :: vs := by
  obtain ⟨us, rfl, he, h⟩ := closes_other (by simp) (by simp) h he
  obtain ⟨us, rfl, he, h⟩ := closes_other (by simp) (by simp) h he
  exact ⟨_, rfl⟩

theorem closes_test {us rest vs : List Tok} (h : Closes .lbrack .rbrack 1 us) (he : us ++ rest = cfgTest ++ vs) :
    us = cfgTest := by
  obtain ⟨us, rfl, he, h⟩ := closes_other (by simp) (by simp) h he
  obtain ⟨us, rfl, he, h⟩ := closes_other (by simp) (by simp) h he
  obtain ⟨us, rfl, he, h⟩ := closes_other (by simp) (by simp) h he
  obtain ⟨us, rfl, he, h⟩ := closes_other (by simp) (by simp) h he
  cases closes_end (by simp) h he
  rfl

theorem attrsP_complete {us : List Tok} {ds : List Derive} {t : Bool} (h : Attrs us ds t) {rest : List Tok}
    (hr : StartsNot (.op .hash) rest) : ∀ n, us.length ≤ n → attrsP n (us ++ rest) = some ((ds, t), rest) := by
  induction h with
  | nil =>
    intro n _
    rw [List.nil_append, attrsP]
    all_goals intros; exact hr _ ‹_›
  | derive hd _ ih =>
    intro n hn
    obtain ⟨n, rfl⟩ : ∃ m, n = m + 1 := ⟨n - 1, by simp at hn; omega⟩
    have ih := ih n (by simp at hn; omega)
    simp only [List.cons_append, List.append_assoc, attrsP, derivesP_complete hd, ih, Option.bind_eq_bind,
      Option.bind_some]
  | test _ ih =>
    intro n hn
    obtain ⟨n, rfl⟩ : ∃ m, n = m + 1 := ⟨n - 1, by simp at hn; omega⟩
    have ih := ih n (by simp [cfgTest] at hn; omega)
    simp only [List.cons_append, cfgTest, List.nil_append, attrsP, ih, Option.bind_eq_bind,
      Option.bind_some]
  | @outer us vs es t hc hd ht _ ih =>
    intro n hn
    obtain ⟨n, rfl⟩ : ∃ m, n = m + 1 := ⟨n - 1, by simp at hn; omega⟩
    have ih := ih n (by simp at hn; omega)
    simp only [List.cons_append, List.append_assoc]
    rw [attrsP, skipBrackets_closes _ hc]
    · exact ih
    · intro ws e
      obtain ⟨ws, e⟩ := closes_derive hc e
      exact hd _ e
    · intro ws e
      exact ht (closes_test hc e)
  | @inner us vs es t hc _ ih =>
    intro n hn
    obtain ⟨n, rfl⟩ : ∃ m, n = m + 1 := ⟨n - 1, by simp at hn; omega⟩
    have ih := ih n (by simp at hn; omega)
    simp only [List.cons_append, List.append_assoc]
    rw [attrsP, skipBrackets_closes _ hc]
    exact ih

theorem want_brace {as us : List Tok} (ha : Attributes as) (hu : ∀ ts, us ≠ .op .rbrace :: ts) :
    want .rbrace (as ++ us) = none := by
  cases ha with
  | nil => exact want_none hu
  | outer => rfl
  | inner => rfl

theorem skip_attributes {as us : List Tok} (ha : Attributes as) (hu : ∃ t ts, us = t :: ts ∧ t ≠ .op .hash) :
    skipAttrs 0 (as ++ us) = some us := by
  obtain ⟨t, ts, rfl, h⟩ := hu
  rw [skipAttrs_attributes ha, skipAttrs_stop h]

theorem variantsP_complete {us : List Tok} {vs : List (Id × Option Id)} (h : Variants us vs) (rest : List Tok) :
    ∀ n, us.length ≤ n → variantsP n (us ++ rest) = some (vs, rest) := by
  induction h with
  | nil =>
    intro n hn
    obtain ⟨n, rfl⟩ : ∃ m, n = m + 1 := ⟨n - 1, by simp at hn; omega⟩
    rfl
  | last ha hv =>
    intro n hn
    obtain ⟨n, rfl⟩ : ∃ m, n = m + 2 := ⟨n - 2, by cases hv <;> simp at hn <;> omega⟩
    have e : variantsP (n + 1) (.op .rbrace :: rest) = some ([], rest) := rfl
    cases hv with
    | plain hi =>
      simp only [List.append_assoc, List.cons_append, List.nil_append]
      rw [variantsP, want_brace ha (by simp), skip_attributes ha ⟨_, _, rfl, by simp⟩]
      simp only [Option.bind_eq_bind, Option.bind_some, hi, sep_close (o := .rbrace) (by simp), e]
    | arg hi hj =>
      simp only [List.append_assoc, List.cons_append, List.nil_append]
      rw [variantsP, want_brace ha (by simp), skip_attributes ha ⟨_, _, rfl, by simp⟩]
      simp only [Option.bind_eq_bind, Option.bind_some, hi, hj, sep_close (o := .rbrace) (by simp), e]
  | @more as us v ws vs ha hv _ ih =>
    intro n hn
    obtain ⟨n, rfl⟩ : ∃ m, n = m + 1 := ⟨n - 1, by simp at hn; omega⟩
    have e := ih n (by simp at hn; omega)
    cases hv with
    | plain hi =>
      simp only [List.append_assoc, List.cons_append, List.nil_append]
      rw [variantsP, want_brace ha (by simp), skip_attributes ha ⟨_, _, rfl, by simp⟩]
      simp only [Option.bind_eq_bind, Option.bind_some, hi, sep_comma, e]
    | arg hi hj =>
      simp only [List.append_assoc, List.cons_append, List.nil_append]
      rw [variantsP, want_brace ha (by simp), skip_attributes ha ⟨_, _, rfl, by simp⟩]
      simp only [Option.bind_eq_bind, Option.bind_some, hi, hj, sep_comma, e]

/-- With a limit that is large enough. -/
def Enough {α : Type} (f : Nat → Option α) (x : α) : Prop := ∃ N, ∀ n, N ≤ n → f n = some x

theorem ty_complete {c : Ctx} {us : List Tok} {t : Ty} (h : Phrase .ty c us t) {u : Tok} (h1 : u ≠ .op .lt)
    (h2 : u ≠ .op .colon2) (rest : List Tok) :
    Enough (fun n => (rules n).ty c (us ++ u :: rest)) (t, u :: rest) :=
  complete h (u :: rest) (fun _ e => h1 (by cases e; rfl)) (fun _ e => h2 (by cases e; rfl))

theorem membersP_complete {c : Ctx} {us : List Tok} {xs : List (Id × Ty)} (h : Members c us xs) (rest : List Tok) :
    Enough (fun n => membersP c n (us ++ rest)) (xs, rest) := by
  induction h with
  | nil =>
    refine ⟨1, fun n hn => ?_⟩
    obtain ⟨n, rfl⟩ : ∃ m, n = m + 1 := ⟨n - 1, by omega⟩
    rfl
  | last ha hi ht =>
    obtain ⟨N, h⟩ := ty_complete ht (u := .op .rbrace) (by simp) (by simp) rest
    refine ⟨N + 2, fun n hn => ?_⟩
    obtain ⟨n, rfl⟩ : ∃ m, n = m + 2 := ⟨n - 2, by omega⟩
    have e : membersP c (n + 1) (.op .rbrace :: rest) = some ([], rest) := rfl
    have h := h (n + 1) (by omega)
    dsimp only at h
    simp only [List.append_assoc, List.cons_append, List.nil_append]
    rw [membersP, want_brace ha (by simp), skip_attributes ha ⟨_, _, rfl, by simp⟩]
    simp only [Option.bind_eq_bind, Option.bind_some, hi, h, sep_close (o := .rbrace) (by simp), e]
  | @more as x i us t ws xs ha hi ht _ ih =>
    obtain ⟨N, h⟩ := ty_complete ht (u := .op .comma) (by simp) (by simp) (ws ++ rest)
    obtain ⟨M, ih⟩ := ih
    refine ⟨N + M + 1, fun n hn => ?_⟩
    obtain ⟨n, rfl⟩ : ∃ m, n = m + 1 := ⟨n - 1, by omega⟩
    have h := h n (by omega)
    have e := ih n (by omega)
    dsimp only at h e
    simp only [List.append_assoc, List.cons_append]
    rw [membersP, want_brace ha (by simp), skip_attributes ha ⟨_, _, rfl, by simp⟩]
    simp only [Option.bind_eq_bind, Option.bind_some, hi, h, sep_comma, e]

theorem want_refs {rs us : List Tok} (hr : Refs rs) (hu : ∀ ts, us ≠ .op .rparen :: ts) :
    want .rparen (rs ++ us) = none := by
  cases rs with
  | nil => exact want_none hu
  | cons r rs => rcases hr r (List.mem_cons_self ..) with rfl | rfl | rfl <;> rfl

theorem paramsP_one {c : Ctx} {us : List Tok} {ps : List (Id × Ty)} (h : Param c us ps) {u : Tok} {ts ts' : List Tok}
    (hu : u = .op .comma ∨ u = .op .rparen) (hs : sep .rparen (u :: ts) = some ts') :
    ∃ N, ∀ n, N ≤ n → paramsP c (n + 1) (us ++ u :: ts) =
      (paramsP c n ts').bind fun p => some (ps ++ p.1, p.2) := by
  have u1 : u ≠ .op .lt := by rintro rfl; simp at hu
  have u2 : u ≠ .op .colon2 := by rintro rfl; simp at hu
  have u3 : u ≠ .op .colon := by rintro rfl; simp at hu
  cases h with
  | formatter hr ht =>
    obtain ⟨N, h⟩ := ty_complete ht u1 u2 ts
    refine ⟨N, fun n hn => ?_⟩
    have h := h n hn
    dsimp only at h
    simp only [List.append_assoc, List.cons_append]
    rw [paramsP, want_refs hr (by simp), skipRefs_refs _ hr]
    simp only [skipRefs, h, hs, Option.bind_eq_bind, Option.bind_some, List.nil_append]
    cases paramsP c n ts' <;> rfl
  | typed hr hi ht =>
    obtain ⟨N, h⟩ := ty_complete ht u1 u2 ts
    refine ⟨N, fun n hn => ?_⟩
    have h := h n hn
    dsimp only at h
    simp only [List.append_assoc, List.cons_append]
    rw [paramsP, want_refs hr (by simp), skipRefs_refs _ hr]
    simp only [skipRefs, hi, h, hs, Option.bind_eq_bind, Option.bind_some, List.nil_append]
  | self hr hi =>
    refine ⟨0, fun n _ => ?_⟩
    simp only [List.append_assoc, List.cons_append, List.nil_append]
    rw [paramsP, want_refs hr (by simp), skipRefs_refs _ hr]
    rcases hu with rfl | rfl
    · simp only [skipRefs, hi, hs, Option.bind_eq_bind, Option.bind_some]
    · simp only [skipRefs, hi, hs, Option.bind_eq_bind, Option.bind_some]

theorem paramsP_complete {c : Ctx} {us : List Tok} {ps : List (Id × Ty)} (h : Params c us ps) (rest : List Tok) :
    Enough (fun n => paramsP c n (us ++ rest)) (ps, rest) := by
  induction h with
  | nil =>
    refine ⟨1, fun n hn => ?_⟩
    obtain ⟨n, rfl⟩ : ∃ m, n = m + 1 := ⟨n - 1, by omega⟩
    rfl
  | last hp =>
    obtain ⟨N, h⟩ := paramsP_one hp (ts := rest) (Or.inr rfl) (sep_close (by simp) _)
    refine ⟨N + 2, fun n hn => ?_⟩
    obtain ⟨n, rfl⟩ : ∃ m, n = m + 2 := ⟨n - 2, by omega⟩
    have e : paramsP c (n + 1) (.op .rparen :: rest) = some ([], rest) := rfl
    simp only [List.append_assoc, List.cons_append, List.nil_append, h (n + 1) (by omega), e, Option.bind_some,
      List.append_nil]
  | @more us ps ws qs hp _ ih =>
    obtain ⟨N, h⟩ := paramsP_one hp (ts := ws ++ rest) (Or.inl rfl) (sep_comma _ _)
    obtain ⟨M, ih⟩ := ih
    refine ⟨N + M + 1, fun n hn => ?_⟩
    obtain ⟨n, rfl⟩ : ∃ m, n = m + 1 := ⟨n - 1, by omega⟩
    have e := ih n (by omega)
    dsimp only at e
    simp only [List.append_assoc, List.cons_append, h n (by omega), e, Option.bind_some]

theorem generics_complete {gs us : List Tok} (h : Generics gs) (hu : StartsNot (.op .lt) us) :
    generics (gs ++ us) = some us := by
  cases h with
  | none =>
    rw [List.nil_append, generics]
    exact fun _ e => hu _ e
  | some h =>
    simp only [List.cons_append, List.append_assoc, List.nil_append, generics]
    exact skipTo_until _ h

theorem retP_complete {c : Ctx} {us : List Tok} {t : Ty} (h : Ret c us t) {u : Tok} (h1 : u ≠ .op .lt)
    (h2 : u ≠ .op .colon2) (h3 : u ≠ .op .arrow) (rest : List Tok) :
    Enough (fun n => retP n c (us ++ u :: rest)) (t, u :: rest) := by
  cases h with
  | none =>
    refine ⟨0, fun n _ => ?_⟩
    show retP n c (u :: rest) = _
    rw [retP]
    rintro ts e
    cases e
    exact h3 rfl
  | some h =>
    obtain ⟨N, h⟩ := ty_complete h h1 h2 rest
    exact ⟨N, h⟩

section
variable {body : Nat → Ctx → P Expr} {b : Ctx → List Tok → Expr → Prop}
  (hb : ∀ c us e rest, b c us e → (∃ vs, us = .op .lbrace :: vs) ∧ Enough (fun n => body n c (us ++ rest)) (e, rest))
include hb

theorem fnP_complete {c : Ctx} {us : List Tok} {f : Option (Nat × Fn)} (h : Function b c us f) (rest : List Tok) :
    Enough (fun n => fnP (body n) n c (us ++ rest)) (f, rest) := by
  cases h with
  | @noBody f i gs us ps rs t hi hg hp ht =>
    obtain ⟨N, h1⟩ := paramsP_complete hp (rs ++ .op .semi :: rest)
    obtain ⟨M, h2⟩ := retP_complete ht (u := .op .semi) (by simp) (by simp) (by simp) rest
    refine ⟨N + M, fun n hn => ?_⟩
    have h1 := h1 n (by omega)
    have h2 := h2 n (by omega)
    dsimp only at h1 h2
    simp only [List.cons_append, List.append_assoc, List.nil_append, fnP, hi,
      generics_complete hg (us := .op .lparen :: (us ++ (rs ++ .op .semi :: rest))) (by intro; simp), want_op, h1, h2,
      Option.bind_eq_bind, Option.bind_some]
  | @body f i gs us ps rs t bs e hi hg hp ht he =>
    obtain ⟨⟨vs, rfl⟩, K, h3⟩ := hb _ _ _ rest he
    obtain ⟨N, h1⟩ := paramsP_complete hp (rs ++ .op .lbrace :: (vs ++ rest))
    obtain ⟨M, h2⟩ := retP_complete ht (u := .op .lbrace) (by simp) (by simp) (by simp) (vs ++ rest)
    refine ⟨N + M + K, fun n hn => ?_⟩
    have h1 := h1 n (by omega)
    have h2 := h2 n (by omega)
    have h3 := h3 n (by omega)
    dsimp only [List.cons_append] at h1 h2 h3
    simp only [List.cons_append, List.append_assoc, fnP, hi,
      generics_complete hg (us := .op .lparen :: (us ++ (rs ++ .op .lbrace :: (vs ++ rest)))) (by intro; simp),
      want_op, h1, h2, h3, Option.bind_eq_bind, Option.bind_some]

omit hb in
theorem skipPub_opt {ps : List Tok} (h : OptPub ps) {t : Tok} (ht : t ≠ .kw .pub) (ts : List Tok) :
    skipPub (ps ++ t :: ts) = t :: ts := by
  rcases h with rfl | rfl
  · rw [List.nil_append, skipPub]
    rintro ts e
    cases e
    exact ht rfl
  · rfl

omit hb in
/-- The reader first takes what stands before an item. -/
theorem itemsP_before {c : Ctx} {as ps : List Tok} {ds : List Derive} {t : Bool} (ha : Attrs as ds t) (hp : OptPub ps)
    {k : Kw} (hk : itemKw k = true) (i : Option Nat) (d : Decls) (ts : List Tok) {n : Nat} (hn : as.length ≤ n) :
    itemsP body (n + 1) c i d (as ++ (ps ++ .kw k :: ts)) = match t && !c.test with
      | true => (skipItem (.kw k :: ts)).bind (itemsP body n c i d)
      | false => (itemP (body n) (itemsP body n) n c i ds d (.kw k :: ts)).bind fun p => itemsP body n c i p.1 p.2 := by
  have hk : Tok.kw k ≠ .kw .pub := by rintro e; cases e; cases hk
  have hr : StartsNot (.op .hash) (ps ++ .kw k :: ts) := by
    rintro us e
    rcases hp with rfl | rfl <;> cases e
  have h1 := attrsP_complete ha hr n hn
  rw [itemsP]
  · simp only [h1, Option.bind_eq_bind, Option.bind_some, skipPub_opt hp hk]
    cases t && !c.test <;> rfl
  · intro e
    rcases hp with rfl | rfl <;> simp at e
  · intro us e
    cases ha <;> rcases hp with rfl | rfl <;> cases e

omit hb in
/-- Reading an item and then those after it. -/
theorem itemsP_step {c : Ctx} {i : Option Nat} {hs : List Tok} {ds : List Derive} (hB : Before c hs ds) {k : Kw}
    (hk : itemKw k = true) {us ws rest : List Tok} {d e f : Decls}
    (h : Enough (fun n => itemP (body n) (itemsP body n) n c i ds d (.kw k :: us ++ (ws ++ rest))) (d ++ e, ws ++ rest))
    (hi : Enough (fun n => itemsP body n c i (d ++ e) (ws ++ rest)) (d ++ e ++ f, rest)) :
    Enough (fun n => itemsP body n c i d (hs ++ .kw k :: us ++ ws ++ rest)) (d ++ (e ++ f), rest) := by
  obtain ⟨as, ps, t, rfl, ha, hp, ht⟩ := hB
  obtain ⟨N, h⟩ := h
  obtain ⟨M, hi⟩ := hi
  refine ⟨as.length + N + M + 1, fun n hn => ?_⟩
  obtain ⟨n, rfl⟩ : ∃ m, n = m + 1 := ⟨n - 1, by omega⟩
  have h := h n (by omega)
  have hi := hi n (by omega)
  dsimp only [List.cons_append] at h
  dsimp only at hi
  have ht : (t && !c.test) = false := by
    cases t
    · rfl
    · simp [ht rfl]
  simp only [List.append_assoc, List.cons_append]
  rw [itemsP_before ha hp hk _ _ _ (by omega), ht]
  simp only [h, Option.bind_some, hi, Decls.append_assoc]

/-- Whatever comes after items: the end of the file or a brace. -/
def ItemsEnd (rest : List Tok) : Prop := rest = [] ∨ ∃ ts, rest = .op .rbrace :: ts

/-- Every list of items is read as what it declares. -/
theorem itemsP_complete {c : Ctx} {i : Option Nat} {us : List Tok} {e : Decls} (h : Items b c i us e) :
    ∀ rest d, ItemsEnd rest → Enough (fun n => itemsP body n c i d (us ++ rest)) (d ++ e, rest) := by
  induction h with
  | nil =>
    intro rest d hr
    refine ⟨1, fun n hn => ?_⟩
    obtain ⟨n, rfl⟩ : ∃ m, n = m + 1 := ⟨n - 1, by omega⟩
    rw [Decls.append_none]
    rcases hr with rfl | ⟨ts, rfl⟩ <;> rfl
  | @skipped c i as es ps k us vs ws d ha hc hp hk hu hv _ ih =>
    intro rest d0 hr
    obtain ⟨N, ih⟩ := ih rest d0 hr
    refine ⟨as.length + N + 1, fun n hn => ?_⟩
    obtain ⟨n, rfl⟩ : ∃ m, n = m + 1 := ⟨n - 1, by omega⟩
    have ih := ih n (by omega)
    simp only [List.append_assoc, List.cons_append]
    rw [itemsP_before ha hp hk _ _ _ (by omega), hc]
    simp only [Bool.not_false, Bool.and_true, skipItem, hk, skipTo_until _ hu, Option.bind_some,
      skipBraces_closes _ hv]
    exact ih
  | @use c i hs ds us ws d hB hu _ ih =>
    intro rest d0 hr
    have := itemsP_step (body := body) (e := .none) hB (k := .use) rfl (us := us ++ [.op .semi]) (d := d0) (rest := rest)
      ⟨0, fun n _ => by simp [itemP, skipTo_until _ hu, Decls.append_none]⟩ (ih rest _ hr)
    simpa [Decls.none_append] using this
  | @type_ c i hs ds us ws d hB hu _ ih =>
    intro rest d0 hr
    have := itemsP_step (body := body) (e := .none) hB (k := .type) rfl (us := us ++ [.op .semi]) (d := d0) (rest := rest)
      ⟨0, fun n _ => by simp [itemP, skipTo_until _ hu, Decls.append_none]⟩ (ih rest _ hr)
    simpa [Decls.none_append] using this
  | @file c i hs ds m ws d hB _ ih =>
    intro rest d0 hr
    have := itemsP_step (body := body) (e := .none) hB (k := .mod) rfl (us := [.name m, .op .semi]) (d := d0)
      (rest := rest) ⟨0, fun n _ => by simp [itemP, Decls.append_none]⟩ (ih rest _ hr)
    simpa [Decls.none_append] using this
  | @mod c i hs ds m us ws d e hB _ _ ih ih' =>
    intro rest d0 hr
    obtain ⟨N, ih⟩ := ih (.op .rbrace :: (ws ++ rest)) d0 (Or.inr ⟨_, rfl⟩)
    have := itemsP_step (body := body) (e := d) hB (k := .mod) rfl (us := .name m :: .op .lbrace :: us ++ [.op .rbrace]) (d := d0)
      (rest := rest) ⟨N, fun n hn => by
        have ih := ih n hn
        dsimp only at ih
        simp [itemP, ih, want_op]⟩ (ih' rest _ hr)
    simpa using this
  | @enum c i hs ds m j us vs ws d hB hj hv _ ih' =>
    intro rest d0 hr
    have := itemsP_step (body := body) (e := ⟨[], [], [], [(m, ⟨j, ds, .enum vs⟩)]⟩) hB (k := .enum) rfl (us := .name m :: .op .lbrace :: us) (d := d0)
      (rest := rest) ⟨us.length, fun n hn => by
        simp [itemP, hj, variantsP_complete hv _ n hn, Decls.add_type]⟩ (ih' rest _ hr)
    simpa using this
  | @struct c i hs ds m j us vs ws d hB hj hv _ ih' =>
    intro rest d0 hr
    obtain ⟨N, h⟩ := membersP_complete hv (ws ++ rest)
    have := itemsP_step (body := body) (e := ⟨[], [], [], [(m, ⟨j, ds, .struct vs⟩)]⟩) hB (k := .struct) rfl (us := .name m :: .op .lbrace :: us) (d := d0)
      (rest := rest) ⟨N, fun n hn => by
        have h := h n hn
        dsimp only at h
        simp [itemP, hj, h, Decls.add_type]⟩ (ih' rest _ hr)
    simpa using this
  | @trait c i hs ds m us ws d e hB _ _ ih ih' =>
    intro rest d0 hr
    obtain ⟨N, ih⟩ := ih (.op .rbrace :: (ws ++ rest)) d0 (Or.inr ⟨_, rfl⟩)
    have := itemsP_step (body := body) (e := d) hB (k := .trait) rfl (us := .name m :: .op .lbrace :: us ++ [.op .rbrace]) (d := d0)
      (rest := rest) ⟨N, fun n hn => by
        have ih := ih n hn
        dsimp only at ih
        simp [itemP, ih, want_op]⟩ (ih' rest _ hr)
    simpa using this
  | @implFor c i hs ds a gs m us ws d e hB hg _ _ ih ih' =>
    intro rest d0 hr
    obtain ⟨N, ih⟩ := ih (.op .rbrace :: (ws ++ rest)) (d0 ++ (⟨[], [], [(a, m)], []⟩ : Decls)) (Or.inr ⟨_, rfl⟩)
    have := itemsP_step (body := body) hB (k := .impl) rfl
      (us := .name a :: gs ++ .kw .for :: .name m :: .op .lbrace :: us ++ [.op .rbrace]) (d := d0)
      (e := (⟨[], [], [(a, m)], []⟩ : Decls) ++ d)
      (rest := rest) ⟨N, fun n hn => by
        have ih := ih n hn
        dsimp only at ih
        simp [itemP, generics_complete hg (us := .kw .for :: .name m :: .op .lbrace ::
          (us ++ .op .rbrace :: (ws ++ rest))) (by intro; simp), Decls.add_impl, ih, want_op, Decls.append_assoc]⟩
      (ih' rest _ hr)
    simpa [Decls.append_assoc] using this
  | @impl c i hs ds a gs us ws d e hB hg _ _ ih ih' =>
    intro rest d0 hr
    obtain ⟨N, ih⟩ := ih (.op .rbrace :: (ws ++ rest)) d0 (Or.inr ⟨_, rfl⟩)
    have := itemsP_step (body := body) hB (k := .impl) rfl
      (us := .name a :: gs ++ .op .lbrace :: us ++ [.op .rbrace]) (d := d0) (e := d)
      (rest := rest) ⟨N, fun n hn => by
        have ih := ih n hn
        dsimp only at ih
        simp [itemP, generics_complete hg (us := .op .lbrace ::
          (us ++ .op .rbrace :: (ws ++ rest))) (by intro; simp), ih, want_op]⟩
      (ih' rest _ hr)
    simpa using this
  | @fn c i hs ds us f ws d hB hf _ ih =>
    intro rest d0 hr
    obtain ⟨N, h⟩ := fnP_complete hb hf (ws ++ rest)
    have := itemsP_step (body := body) hB (k := .fn) rfl (us := us) (d := d0) (e := declared c f i)
      (rest := rest) ⟨N, fun n hn => by
        have h := h n hn
        dsimp only at h
        rcases f with _ | ⟨f, fn⟩
        · simp [itemP, h, declared, Decls.append_none]
        · cases i
          · simp [itemP, h, declared, Decls.add_fn]
          · simp [itemP, h, declared, Decls.add_default]⟩
      (ih rest _ hr)
    simpa using this

theorem filesP_complete {c : Ctx} {fs : List (Nat × List Tok)} {ds : List Decls} (h : Files b c fs ds) :
    Enough (fun n => filesP body n c fs) ds := by
  induction h with
  | nil => exact ⟨0, fun _ _ => rfl⟩
  | @cons m ts d fs ds hi _ ih =>
    obtain ⟨N, h⟩ := itemsP_complete hb hi [] .none (Or.inl rfl)
    obtain ⟨M, ih⟩ := ih
    refine ⟨N + M, fun n hn => ?_⟩
    have h := h n (by omega)
    have ih := ih n (by omega)
    dsimp only at h ih
    rw [List.append_nil, Decls.none_append] at h
    simp only [filesP, fileP]
    rw [show (⟨[], [], [], []⟩ : Decls) = .none from rfl, h]
    simp only [Option.bind_eq_bind, Option.bind_some, ih]

end

theorem skipBody_complete (c : Ctx) (us : List Tok) (e : Expr) (rest : List Tok) (h : Unread c us e) :
    (∃ vs, us = .op .lbrace :: vs) ∧ Enough (fun n => skipBody n c (us ++ rest)) (e, rest) := by
  obtain ⟨vs, rfl, hv, rfl⟩ := h
  exact ⟨⟨_, rfl⟩, 0, fun n _ => by simp [skipBody, want_op, skipBraces_closes _ hv]⟩

theorem readBody_complete (c : Ctx) (us : List Tok) (e : Expr) (rest : List Tok) (h : Body c us e) :
    (∃ vs, us = .op .lbrace :: vs) ∧ Enough (fun n => readBody n c (us ++ rest)) (e, rest) := by
  refine ⟨?_, complete h rest⟩
  cases h
  exact ⟨_, rfl⟩

/-- Every crate is read as what it is. -/
theorem crateN_complete {test : Bool} {fs : List (Nat × List Tok)} {k : Crate} (h : IsCrate test fs k) :
    Enough (fun n => crateN n test fs) k := by
  obtain ⟨ds, es, hd, he, rfl⟩ := h
  obtain ⟨N, hd⟩ := filesP_complete skipBody_complete hd
  obtain ⟨M, he⟩ := filesP_complete readBody_complete he
  refine ⟨N + M, fun n hn => ?_⟩
  have hd := hd n (by omega)
  have he := he n (by omega)
  dsimp only at hd he
  simp only [crateN, hd, he, Option.bind_eq_bind, Option.bind_some]

end Raki.Source
