import Verif.Source.GrammarSound
import Verif.Source.Items
/-!
# The reader reads only items of the grammar
-/

set_option linter.constructorNameAsVariable false

namespace Raki.Source

/-- Take the first step of a computation that succeeds. -/
local macro "peel " h:ident " with " p:rcasesPat : tactic =>
  `(tactic| (replace $h := Option.bind_eq_some_iff.1 $h; obtain $p:rcasesPat := $h))

theorem Decls.none_append (d : Decls) : Decls.none ++ d = d := by
  cases d; rfl

theorem Decls.append_none (d : Decls) : d ++ Decls.none = d := by
  cases d
  show Decls.mk (_ ++ []) (_ ++ []) (_ ++ []) (_ ++ []) = _
  simp only [List.append_nil]

theorem Decls.append_assoc (d e f : Decls) : d ++ e ++ f = d ++ (e ++ f) := by
  cases d; cases e; cases f
  show Decls.mk (_ ++ _ ++ _) (_ ++ _ ++ _) (_ ++ _ ++ _) (_ ++ _ ++ _) = _
  simp only [List.append_assoc]
  rfl

theorem Decls.add_fn (d : Decls) (x : Nat × Nat × Fn) :
    { d with fns := d.fns ++ [x] } = d ++ (⟨[x], [], [], []⟩ : Decls) := by
  show _ = Decls.mk (_ ++ _) (_ ++ []) (_ ++ []) (_ ++ [])
  simp only [List.append_nil]

theorem Decls.add_default (d : Decls) (x : Nat × Nat × Fn) :
    { d with defaults := d.defaults ++ [x] } = d ++ (⟨[], [x], [], []⟩ : Decls) := by
  show _ = Decls.mk (_ ++ []) (_ ++ _) (_ ++ []) (_ ++ [])
  simp only [List.append_nil]

theorem Decls.add_impl (d : Decls) (x : Nat × Nat) :
    { d with impls := d.impls ++ [x] } = d ++ (⟨[], [], [x], []⟩ : Decls) := by
  show _ = Decls.mk (_ ++ []) (_ ++ []) (_ ++ _) (_ ++ [])
  simp only [List.append_nil]

theorem Decls.add_type (d : Decls) (x : Nat × TypeDecl) :
    { d with types := d.types ++ [x] } = d ++ (⟨[], [], [], [x]⟩ : Decls) := by
  show _ = Decls.mk (_ ++ []) (_ ++ []) (_ ++ []) (_ ++ _)
  simp only [List.append_nil]

theorem skipBraces_took : ∀ {ts us : List Tok} {d : Nat}, skipBraces (d + 1) ts = some us →
    ∃ vs, ts = vs ++ us ∧ Closes .lbrace .rbrace (d + 1) vs
  | [], us, d, h => by cases d <;> simp [skipBraces] at h
  | t :: ts, us, d, h => by
    by_cases hl : t = .op .lbrace
    · subst hl
      have h' : skipBraces (d + 2) ts = some us := by cases d <;> simpa [skipBraces] using h
      obtain ⟨vs, rfl, hc⟩ := skipBraces_took h'
      exact ⟨_, rfl, .enter hc⟩
    · by_cases hr : t = .op .rbrace
      · subst hr
        cases d with
        | zero =>
          cases h
          exact ⟨[_], rfl, .leave .done⟩
        | succ d =>
          have h' : skipBraces (d + 1) ts = some us := by simpa [skipBraces] using h
          obtain ⟨vs, rfl, hc⟩ := skipBraces_took h'
          exact ⟨_, rfl, .leave hc⟩
      · rw [skipBraces] at h
        · obtain ⟨vs, rfl, hc⟩ := skipBraces_took h
          exact ⟨_, rfl, .other hl hr hc⟩
        all_goals intros; first | exact hl ‹_› | exact hr ‹_›

theorem skipBrackets_took : ∀ {ts us : List Tok} {d : Nat}, skipBrackets (d + 1) ts = some us →
    ∃ vs, ts = vs ++ us ∧ Closes .lbrack .rbrack (d + 1) vs
  | [], us, d, h => by cases d <;> simp [skipBrackets] at h
  | t :: ts, us, d, h => by
    by_cases hl : t = .op .lbrack
    · subst hl
      have h' : skipBrackets (d + 2) ts = some us := by cases d <;> simpa [skipBrackets] using h
      obtain ⟨vs, rfl, hc⟩ := skipBrackets_took h'
      exact ⟨_, rfl, .enter hc⟩
    · by_cases hr : t = .op .rbrack
      · subst hr
        cases d with
        | zero =>
          cases h
          exact ⟨[_], rfl, .leave .done⟩
        | succ d =>
          have h' : skipBrackets (d + 1) ts = some us := by simpa [skipBrackets] using h
          obtain ⟨vs, rfl, hc⟩ := skipBrackets_took h'
          exact ⟨_, rfl, .leave hc⟩
      · rw [skipBrackets] at h
        · obtain ⟨vs, rfl, hc⟩ := skipBrackets_took h
          exact ⟨_, rfl, .other hl hr hc⟩
        all_goals intros; first | exact hl ‹_› | exact hr ‹_›

theorem derivesP_sound : ∀ {ts ds rest}, derivesP ts = some (ds, rest) → ∃ us, ts = us ++ rest ∧ Derives us ds := by
  intro ts
  induction ts using derivesP.induct with
  | case1 ts =>
    intro ds rest h
    cases h
    exact ⟨_, rfl, .nil⟩
  | case2 k ts =>
    intro ds rest h
    rw [derivesP, Option.map_eq_some_iff] at h
    obtain ⟨d, hd, e⟩ := h
    cases e
    exact ⟨_, rfl, .last hd⟩
  | case3 k ts d ds us he hd ih =>
    intro es rest h
    rw [derivesP, hd, he] at h
    cases h
    obtain ⟨vs, rfl, hv⟩ := ih he
    exact ⟨_, rfl, .more hd hv⟩
  | case4 k ts hn ih =>
    intro es rest h
    rw [derivesP] at h
    split at h
    · next h1 h2 => exact (hn _ _ _ h1 h2).elim
    · cases h
  | case5 ts h1 h2 h3 =>
    intro ds rest h
    rw [derivesP] at h
    · cases h
    all_goals assumption

theorem attrsP_sound : ∀ {n ts ds t rest}, attrsP n ts = some ((ds, t), rest) → ∃ us, ts = us ++ rest ∧ Attrs us ds t
  | n, ts, ds, t, rest, h => by
    unfold attrsP at h
    split at h
    · peel h with ⟨⟨ds, us⟩, h1, h⟩
      peel h with ⟨⟨⟨es, t⟩, vs⟩, h2, h⟩
      cases h
      obtain ⟨xs, rfl, hx⟩ := derivesP_sound h1
      obtain ⟨ys, rfl, hy⟩ := attrsP_sound h2
      exact ⟨_, by simp, .derive hx hy⟩
    · peel h with ⟨⟨⟨es, t⟩, vs⟩, h2, h⟩
      cases h
      obtain ⟨ys, rfl, hy⟩ := attrsP_sound h2
      exact ⟨_, by simp [cfgTest], .test hy⟩
    · next h1 h2 =>
      split at h
      · next hs =>
        obtain ⟨xs, rfl, hx⟩ := skipBrackets_took hs
        obtain ⟨ys, rfl, hy⟩ := attrsP_sound h
        refine ⟨_, by simp, .outer hx ?_ ?_ hy⟩
        · rintro vs rfl; exact h1 _ rfl
        · rintro rfl; exact h2 _ rfl
      · cases h
    · split at h
      · next hs =>
        obtain ⟨xs, rfl, hx⟩ := skipBrackets_took hs
        obtain ⟨ys, rfl, hy⟩ := attrsP_sound h
        exact ⟨_, by simp, .inner hx hy⟩
      · cases h
    · cases h
      exact ⟨[], rfl, .nil⟩

theorem skipAttrs_sound {ts us : List Tok} (h : skipAttrs 0 ts = some us) : ∃ as, ts = as ++ us ∧ Attributes as :=
  skipAttrs_took h

theorem attributes_first {as : List Tok} (h : Attributes as) {t : Tok} {ts : List Tok} (ht : t ≠ .op .hash)
    {us : List Tok} (he : as ++ us = t :: ts) : as = [] := by
  cases h with
  | nil => rfl
  | outer => cases he; exact absurd rfl ht
  | inner => cases he; exact absurd rfl ht

theorem variants_close {us vs rest : List Tok} {xs : List (Id × Option Id)} (h : Variants us xs)
    (he : us ++ rest = .op .rbrace :: vs) : us = [.op .rbrace] ∧ xs = [] := by
  cases h with
  | nil => exact ⟨rfl, rfl⟩
  | last ha hv =>
    exfalso
    cases ha with
    | nil => cases hv <;> cases he
    | _ => cases he
  | more ha hv =>
    exfalso
    cases ha with
    | nil => cases hv <;> cases he
    | _ => cases he

theorem variantsP_sound : ∀ {n ts vs rest}, variantsP n ts = some (vs, rest) → ∃ us, ts = us ++ rest ∧ Variants us vs
  | 0, _, _, _, h => by cases h
  | n + 1, ts, vs, rest, h => by
    unfold variantsP at h
    split at h
    · next hw => cases h; exact ⟨[_], want_some hw, .nil⟩
    peel h with ⟨us, hs, h⟩
    obtain ⟨as, rfl, ha⟩ := skipAttrs_sound hs
    have key : ∀ {xs v ys} , Variant xs v → (sep .rbrace ys).bind (fun ts => (variantsP n ts).bind fun p =>
        some (v :: p.1, p.2)) = some (vs, rest) → ∃ us, as ++ (xs ++ ys) = us ++ rest ∧ Variants us vs := by
      intro xs v ys hv h
      peel h with ⟨zs, hs, h⟩
      peel h with ⟨⟨ws, ts⟩, hw, h⟩
      obtain ⟨bs, rfl, hb⟩ := variantsP_sound hw
      cases h
      rcases sep_some hs with rfl | ⟨rfl, vs, e⟩
      · exact ⟨_, by simp, .more ha hv hb⟩
      · obtain ⟨rfl, rfl⟩ := variants_close hb e
        exact ⟨_, by simp, .last ha hv⟩
    split at h
    · peel h with ⟨i, hi, h⟩
      peel h with ⟨j, hj, h⟩
      exact key (.arg hi hj) h
    · peel h with ⟨i, hi, h⟩
      exact key (.plain hi) h
    · cases h

theorem members_close {c : Ctx} {us vs rest : List Tok} {xs : List (Id × Ty)} (h : Members c us xs)
    (he : us ++ rest = .op .rbrace :: vs) : us = [.op .rbrace] ∧ xs = [] := by
  cases h with
  | nil => exact ⟨rfl, rfl⟩
  | last ha => exfalso; cases ha <;> cases he
  | more ha => exfalso; cases ha <;> cases he

theorem membersP_sound {c : Ctx} :
    ∀ {n ts xs rest}, membersP c n ts = some (xs, rest) → ∃ us, ts = us ++ rest ∧ Members c us xs
  | 0, _, _, _, h => by cases h
  | n + 1, ts, xs, rest, h => by
    unfold membersP at h
    split at h
    · next hw => cases h; exact ⟨[_], want_some hw, .nil⟩
    peel h with ⟨us, hs, h⟩
    obtain ⟨as, rfl, ha⟩ := skipAttrs_sound hs
    split at h
    · peel h with ⟨i, hi, h⟩
      peel h with ⟨⟨t, ys⟩, ht, h⟩
      peel h with ⟨zs, hs, h⟩
      peel h with ⟨⟨ws, ts⟩, hw, h⟩
      obtain ⟨bs, rfl, hb⟩ := membersP_sound hw
      obtain ⟨us, rfl, hu⟩ := (rules_sound n).ty ht
      cases h
      rcases sep_some hs with rfl | ⟨rfl, vs, e⟩
      · exact ⟨_, by simp, .more ha hi hu hb⟩
      · obtain ⟨rfl, rfl⟩ := members_close hb e
        exact ⟨_, by simp, .last ha hi hu⟩
    · cases h

theorem plist_close {c : Ctx} {us vs rest : List Tok} {ps : List (Id × Ty)} (h : Params c us ps)
    (he : us ++ rest = .op .rparen :: vs) : us = [.op .rparen] ∧ ps = [] := by
  have key : ∀ {xs ps ys}, Param c xs ps → xs ++ ys ≠ .op .rparen :: vs := by
    intro xs ps ys hp e
    have refs : ∀ {rs zs : List Tok}, Refs rs → rs ++ zs = .op .rparen :: vs → rs = [] := by
      intro rs zs hr e
      cases rs with
      | nil => rfl
      | cons t ts =>
        cases e
        have := hr _ (List.mem_cons_self ..)
        simp at this
    cases hp with
    | formatter hr | typed hr | self hr =>
      rw [List.append_assoc] at e
      have := refs hr e
      subst this
      cases e
  cases h with
  | nil => exact ⟨rfl, rfl⟩
  | last hp => rw [List.append_assoc] at he; exact absurd he (key hp)
  | more hp => rw [List.append_assoc] at he; exact absurd he (key hp)

theorem paramsP_sound {c : Ctx} :
    ∀ {n ts ps rest}, paramsP c n ts = some (ps, rest) → ∃ us, ts = us ++ rest ∧ Params c us ps
  | 0, _, _, _, h => by cases h
  | n + 1, ts, ps, rest, h => by
    have key : ∀ {rs xs qs ys}, Param c (rs ++ xs) qs → (sep .rparen ys).bind (fun ts => (paramsP c n ts).bind fun p =>
        some (qs ++ p.1, p.2)) = some (ps, rest) → ∃ us, rs ++ (xs ++ ys) = us ++ rest ∧ Params c us ps := by
      intro rs xs qs ys hp h
      peel h with ⟨zs, hs, h⟩
      peel h with ⟨⟨ws, ts⟩, hw, h⟩
      obtain ⟨bs, rfl, hb⟩ := paramsP_sound hw
      cases h
      rcases sep_some hs with rfl | ⟨rfl, vs, e⟩
      · exact ⟨_, by simp, .more hp hb⟩
      · obtain ⟨rfl, rfl⟩ := plist_close hb e
        rw [List.append_nil]
        exact ⟨_, by simp, .last hp⟩
    unfold paramsP at h
    obtain ⟨rs, hr, he⟩ := skipRefs_took ts
    split at h
    · next hw => cases h; exact ⟨[_], want_some hw, .nil⟩
    · next hs =>
      rw [hs] at he
      peel h with ⟨⟨t, ys⟩, ht, h⟩
      obtain ⟨us, rfl, hu⟩ := (rules_sound n).ty ht
      subst he
      refine key (xs := .kw .f :: .op .colon :: us) (.formatter hr hu) ?_
      peel h with ⟨zs, hs, h⟩
      simp [hs, h]
    · next hs =>
      rw [hs] at he
      peel h with ⟨i, hi, h⟩
      peel h with ⟨⟨t, ys⟩, ht, h⟩
      obtain ⟨us, rfl, hu⟩ := (rules_sound n).ty ht
      subst he
      exact key (xs := .name _ :: .op .colon :: us) (.typed hr hi hu) h
    · next hs =>
      rw [hs] at he
      split at h
      · next hi => subst he; exact key (xs := [.name _]) (.self hr hi) h
      · cases h
    · cases h

theorem generics_sound {ts us : List Tok} (h : generics ts = some us) : ∃ gs, ts = gs ++ us ∧ Generics gs := by
  unfold generics at h
  split at h
  · obtain ⟨vs, rfl, hv⟩ := skipTo_took h
    exact ⟨_, by simp, .some hv⟩
  · cases h; exact ⟨[], rfl, .none⟩

theorem retP_sound {n : Nat} {c : Ctx} {ts rest : List Tok} {t : Ty} (h : retP n c ts = some (t, rest)) :
    ∃ us, ts = us ++ rest ∧ Ret c us t := by
  unfold retP at h
  split at h
  · obtain ⟨us, rfl, hu⟩ := (rules_sound n).ty h
    exact ⟨_, rfl, .some hu⟩
  · cases h; exact ⟨[], rfl, .none⟩

theorem skipPub_took (ts : List Tok) : ∃ ps, ts = ps ++ skipPub ts ∧ OptPub ps := by
  unfold skipPub
  split
  · exact ⟨[_], rfl, Or.inr rfl⟩
  · exact ⟨[], rfl, Or.inl rfl⟩

theorem skipItem_sound {ts us : List Tok} (h : skipItem ts = some us) :
    ∃ k vs ws, ts = .kw k :: vs ++ .op .lbrace :: ws ++ us ∧ itemKw k = true ∧ .op .lbrace ∉ vs ∧
      Closes .lbrace .rbrace 1 ws := by
  unfold skipItem at h
  split at h
  · split at h
    · next hk =>
      peel h with ⟨xs, hx, h⟩
      obtain ⟨vs, rfl, hv⟩ := skipTo_took hx
      obtain ⟨ws, rfl, hw⟩ := skipBraces_took h
      exact ⟨_, vs, ws, by simp, hk, hv, hw⟩
    · cases h
  · cases h

section
variable {b : Ctx → List Tok → Expr → Prop}

theorem fnP_sound {body : Ctx → P Expr}
    (hb : ∀ c ts e rest, body c ts = some (e, rest) → ∃ us, ts = us ++ rest ∧ b c us e)
    {n : Nat} {c : Ctx} {ts rest : List Tok} {f : Option (Nat × Fn)}
    (h : fnP body n c ts = some (f, rest)) : ∃ us, ts = us ++ rest ∧ Function b c us f := by
  unfold fnP at h
  split at h
  · peel h with ⟨i, hi, h⟩
    peel h with ⟨us, hg, h⟩
    obtain ⟨gs, rfl, hG⟩ := generics_sound hg
    peel h with ⟨vs, hw, h⟩
    cases want_some hw
    peel h with ⟨⟨ps, ws⟩, hp, h⟩
    obtain ⟨us, rfl, hP⟩ := paramsP_sound hp
    peel h with ⟨⟨t, xs⟩, ht, h⟩
    obtain ⟨rs, rfl, hT⟩ := retP_sound ht
    dsimp only at h
    split at h
    · cases h
      exact ⟨_, by simp, .noBody hi hG hP hT⟩
    · peel h with ⟨⟨e, ys⟩, he, h⟩
      obtain ⟨bs, rfl, hE⟩ := hb _ _ _ _ he
      cases h
      exact ⟨_, by simp, .body hi hG hP hT hE⟩
  · cases h

/-- The tokens form an item that declares this. -/
def OneItem (b : Ctx → List Tok → Expr → Prop) (c : Ctx) (i : Option Nat) (ds : List Derive) (us : List Tok) (e : Decls) :
    Prop :=
  ∀ hs ws f, Before c hs ds → Items b c i ws f → Items b c i (hs ++ us ++ ws) (e ++ f)

theorem itemP_sound {body : Ctx → P Expr}
    (hb : ∀ c ts e rest, body c ts = some (e, rest) → ∃ us, ts = us ++ rest ∧ b c us e)
    {items : Ctx → Option Nat → Decls → P Decls}
    (hs : ∀ c i d ts d' rest, items c i d ts = some (d', rest) →
      ∃ us e, ts = us ++ rest ∧ Items b c i us e ∧ d' = d ++ e)
    {n : Nat} {c : Ctx} {i : Option Nat} {ds : List Derive} {d d' : Decls} {ts rest : List Tok}
    (h : itemP body items n c i ds d ts = some (d', rest)) :
    ∃ us e, ts = us ++ rest ∧ OneItem b c i ds us e ∧ d' = d ++ e := by
  unfold itemP at h
  split at h
  · peel h with ⟨xs, hx, h⟩
    cases h
    obtain ⟨vs, rfl, hv⟩ := skipTo_took hx
    refine ⟨.kw .use :: vs ++ [.op .semi], .none, by simp, fun hs ws f hB hi => ?_, (Decls.append_none _).symm⟩
    rw [Decls.none_append]
    simpa using Items.use hB hv hi
  · peel h with ⟨xs, hx, h⟩
    cases h
    obtain ⟨vs, rfl, hv⟩ := skipTo_took hx
    refine ⟨.kw .type :: vs ++ [.op .semi], .none, by simp, fun hs ws f hB hi => ?_, (Decls.append_none _).symm⟩
    rw [Decls.none_append]
    simpa using Items.type_ hB hv hi
  · next m _ =>
    cases h
    refine ⟨[.kw .mod, .name m, .op .semi], .none, rfl, fun hs ws f hB hi => ?_, (Decls.append_none _).symm⟩
    rw [Decls.none_append]
    simpa using Items.file (m := m) hB hi
  · next m _ =>
    peel h with ⟨⟨d1, xs⟩, hx, h⟩
    peel h with ⟨zs, hw, h⟩
    cases h
    obtain ⟨us, e, rfl, hI, rfl⟩ := hs _ _ _ _ _ _ hx
    cases want_some hw
    refine ⟨.kw .mod :: .name m :: .op .lbrace :: us ++ [.op .rbrace], e, by simp, fun hs ws f hB hi => ?_, rfl⟩
    simpa using Items.mod hB hI hi
  · next m _ =>
    peel h with ⟨j, hj, h⟩
    peel h with ⟨⟨vs, xs⟩, hx, h⟩
    cases h
    obtain ⟨us, rfl, hu⟩ := variantsP_sound hx
    refine ⟨.kw .enum :: .name m :: .op .lbrace :: us, _, by simp, fun hs ws f hB hi => ?_, Decls.add_type ..⟩
    simpa using Items.enum hB hj hu hi
  · next m _ =>
    peel h with ⟨j, hj, h⟩
    peel h with ⟨⟨vs, xs⟩, hx, h⟩
    cases h
    obtain ⟨us, rfl, hu⟩ := membersP_sound hx
    refine ⟨.kw .struct :: .name m :: .op .lbrace :: us, _, by simp, fun hs ws f hB hi => ?_, Decls.add_type ..⟩
    simpa using Items.struct hB hj hu hi
  · next m _ =>
    peel h with ⟨⟨d1, xs⟩, hx, h⟩
    peel h with ⟨zs, hw, h⟩
    cases h
    obtain ⟨us, e, rfl, hI, rfl⟩ := hs _ _ _ _ _ _ hx
    cases want_some hw
    refine ⟨.kw .trait :: .name m :: .op .lbrace :: us ++ [.op .rbrace], e, by simp, fun hs ws f hB hi => ?_, rfl⟩
    simpa using Items.trait hB hI hi
  · next a _ =>
    peel h with ⟨ys, hg, h⟩
    obtain ⟨gs, rfl, hG⟩ := generics_sound hg
    split at h
    · next m _ =>
      peel h with ⟨⟨d1, xs⟩, hx, h⟩
      peel h with ⟨zs, hw, h⟩
      cases h
      obtain ⟨us, e, rfl, hI, rfl⟩ := hs _ _ _ _ _ _ hx
      cases want_some hw
      refine ⟨.kw .impl :: .name a :: gs ++ .kw .for :: .name m :: .op .lbrace :: us ++ [.op .rbrace],
        (⟨[], [], [(a, m)], []⟩ : Decls) ++ e, by simp, fun hs ws f hB hi => ?_, ?_⟩
      · rw [Decls.append_assoc]
        simpa using Items.implFor (a := a) hB hG hI hi
      · rw [Decls.add_impl, Decls.append_assoc]
    · peel h with ⟨⟨d1, xs⟩, hx, h⟩
      peel h with ⟨zs, hw, h⟩
      cases h
      obtain ⟨us, e, rfl, hI, rfl⟩ := hs _ _ _ _ _ _ hx
      cases want_some hw
      refine ⟨.kw .impl :: .name a :: gs ++ .op .lbrace :: us ++ [.op .rbrace], e, by simp,
        fun hs ws f hB hi => ?_, rfl⟩
      simpa using Items.impl hB hG hI hi
    · cases h
  · peel h with ⟨⟨f, xs⟩, hf, h⟩
    obtain ⟨us, rfl, hF⟩ := fnP_sound hb hf
    refine ⟨.kw .fn :: us, declared c f i, ?_, fun hs ws f hB hi => ?_, ?_⟩
    · dsimp only at h
      split at h <;> cases h <;> rfl
    · simpa using Items.fn hB hF hi
    · dsimp only at h
      split at h
      · cases h; exact (Decls.append_none _).symm
      · cases h; exact Decls.add_fn ..
      · cases h; exact Decls.add_default ..
  · cases h

variable {body : Nat → Ctx → P Expr}
  (hb : ∀ n c ts e rest, body n c ts = some (e, rest) → ∃ us, ts = us ++ rest ∧ b c us e)
include hb

/-- The reader reads only items of the grammar. -/
theorem itemsP_sound : ∀ {n c i d ts d' rest}, itemsP body n c i d ts = some (d', rest) →
    ∃ us e, ts = us ++ rest ∧ Items b c i us e ∧ d' = d ++ e
  | 0, _, _, _, _, _, _, h => by cases h
  | n + 1, c, i, d, ts, d', rest, h => by
    unfold itemsP at h
    split at h
    · cases h; exact ⟨[], _, rfl, .nil, (Decls.append_none _).symm⟩
    · cases h; exact ⟨[], _, rfl, .nil, (Decls.append_none _).symm⟩
    peel h with ⟨⟨⟨ds, t⟩, us⟩, ha, h⟩
    obtain ⟨as, rfl, hA⟩ := attrsP_sound ha
    obtain ⟨ps, he, hp⟩ := skipPub_took us
    dsimp only at h
    generalize skipPub us = vs at h he
    subst he
    cases ht : t && !c.test
    case true =>
      simp only [ht] at h
      rw [Bool.and_eq_true, Bool.not_eq_true'] at ht
      obtain ⟨rfl, hc⟩ := ht
      peel h with ⟨xs, hx, h⟩
      obtain ⟨k, vs, ws, rfl, hk, hv, hw⟩ := skipItem_sound hx
      obtain ⟨us, e, rfl, hi, rfl⟩ := itemsP_sound h
      exact ⟨_, _, by simp, .skipped hA hc hp hk hv hw hi, rfl⟩
    simp only [ht] at h
    have hB : Before c (as ++ ps) ds := by
      refine ⟨as, ps, t, rfl, hA, hp, ?_⟩
      rintro rfl
      simpa using ht
    peel h with ⟨⟨d1, xs⟩, hx, h⟩
    obtain ⟨us, e, rfl, hi, rfl⟩ := itemP_sound (hb n) (fun _ _ _ _ _ _ h => itemsP_sound h) hx
    obtain ⟨ws, f, rfl, hj, rfl⟩ := itemsP_sound h
    exact ⟨_, _, by simp, hi _ _ _ hB hj, Decls.append_assoc ..⟩

theorem filesP_sound {n : Nat} {c : Ctx} : ∀ {fs ds}, filesP body n c fs = some ds → Files b c fs ds
  | [], _, h => by cases h; exact .nil
  | (m, ts) :: fs, ds, h => by
    peel h with ⟨d, hd, h⟩
    peel h with ⟨es, he, h⟩
    cases h
    obtain ⟨⟨e, us⟩, hi, h⟩ := Option.bind_eq_some_iff.1 hd
    dsimp only at h
    split at h
    · cases h
      obtain ⟨us, e, rfl, hI, rfl⟩ := itemsP_sound hb hi
      refine .cons ?_ (filesP_sound he)
      rw [List.append_nil]
      exact (Decls.none_append e).symm ▸ hI
    · cases h

end

theorem skipBody_sound (n : Nat) (c : Ctx) (ts : List Tok) (e : Expr) (rest : List Tok)
    (h : skipBody n c ts = some (e, rest)) : ∃ us, ts = us ++ rest ∧ Unread c us e := by
  peel h with ⟨us, hw, h⟩
  peel h with ⟨vs, hs, h⟩
  cases h
  cases want_some hw
  obtain ⟨ws, rfl, hv⟩ := skipBraces_took hs
  exact ⟨_, rfl, _, rfl, hv, rfl⟩

theorem readBody_sound (n : Nat) (c : Ctx) (ts : List Tok) (e : Expr) (rest : List Tok)
    (h : readBody n c ts = some (e, rest)) : ∃ us, ts = us ++ rest ∧ Body c us e := blockP_sound (rules_sound n) h

/-- What is read as a crate is one. -/
theorem crateN_sound {n : Nat} {test : Bool} {fs : List (Nat × List Tok)} {k : Crate} (h : crateN n test fs = some k) :
    IsCrate test fs k := by
  peel h with ⟨ds, hd, h⟩
  peel h with ⟨es, he, h⟩
  cases h
  exact ⟨ds, es, filesP_sound skipBody_sound hd, filesP_sound readBody_sound he, rfl⟩

end Raki.Source
