import Verif.Source.Client
/-!
# The names a program of another crate uses

Whatever the text, a program that is read names types by names that the crate makes public.
-/

set_option linter.constructorNameAsVariable false

namespace Raki

open Source

/-- The type has one of the names. -/
def NamedBy (names : List Nat) (t : Source.Id) : Prop := ∃ n ∈ names, ident n = some t

/-- All types that the expression names have one of the names, and if it calls a method, the trait is among them. -/
def Source.CExpr.Within (names : List Nat) : CExpr → Prop
  | .var _ => True
  | .num _ => True
  | .variant ty _ => NamedBy names ty
  | .variantOf ty _ e => NamedBy names ty ∧ e.Within names
  | .method e _ a => decodeTrait ∈ names ∧ e.Within names ∧ a.Within names
  | .field e _ => e.Within names
  | .okOrPanic e _ a => e.Within names ∧ a.Within names
  | .matches_ e ty _ => NamedBy names ty ∧ e.Within names

/-- The same for the parts of a format string. -/
def Source.CPiece.Within (names : List Nat) : CPiece → Prop
  | .text _ => True
  | .display e => e.Within names
  | .debug e => e.Within names

/-- The same for statements. -/
def Source.CStmts.Within (names : List Nat) : CStmts → Prop
  | .done => True
  | .fn _ b ss => b.Within names ∧ ss.Within names
  | .let_ _ _ e ss => e.Within names ∧ ss.Within names
  | .ifErr _ e b ss => e.Within names ∧ b.Within names ∧ ss.Within names
  | .assert e ss => e.Within names ∧ ss.Within names
  | .assertEq a b ss => a.Within names ∧ b.Within names ∧ ss.Within names
  | .println ps ss => (∀ p ∈ ps, p.Within names) ∧ ss.Within names

variable {pub names : List Nat}

theorem any_mem {n : Nat} (h : names.any (Nat.beq n) = true) : n ∈ names := by
  obtain ⟨m, hm, h⟩ := List.any_eq_true.1 h
  exact Nat.eq_of_beq_eq_true h ▸ hm

theorem inScope_named (hn : ∀ n ∈ names, n ∈ pub) {n : Nat} {t : Source.Id} (h : inScope names n = some t) :
    NamedBy pub t := by
  unfold inScope at h
  split at h
  · exact ⟨n, hn n (any_mem ‹_›), h⟩
  · cases h

theorem cpost_within (hn : ∀ n ∈ names, n ∈ pub) {go : P CExpr}
    (hg : ∀ {ts e ts'}, go ts = some (e, ts') → CExpr.Within pub e) (k : Nat) :
    ∀ {e ts e' ts'}, CExpr.Within pub e → cpostP names go k e ts = some (e', ts') → e'.Within pub := by
  induction k with
  | zero => nofun
  | succ k ih =>
    intro e ts e' ts' he h
    unfold cpostP at h
    split at h
    · simp only [Option.bind_eq_bind] at h
      split at h
      · rename_i h2
        simp only [Option.bind_some, Option.bind_eq_some_iff] at h
        obtain ⟨⟨a, ts1⟩, ha, ts2, -, h⟩ := h
        exact ih (e := .method e .decode a) ⟨hn _ (any_mem h2), he, hg ha⟩ h
      · cases h
    · simp only [Option.bind_eq_bind, Option.bind_eq_some_iff] at h
      obtain ⟨x, -, h⟩ := h
      exact ih (by exact he) h
    · cases h
      exact he

theorem cprimary_within (hn : ∀ n ∈ names, n ∈ pub) {go : P CExpr}
    (hg : ∀ {ts e ts'}, go ts = some (e, ts') → CExpr.Within pub e) {ts : List Tok} {e : CExpr} {ts' : List Tok}
    (h : cprimaryP names go ts = some (e, ts')) : e.Within pub := by
  unfold cprimaryP at h
  split at h
  · cases h; trivial
  · simp only [Option.bind_eq_bind, Option.bind_eq_some_iff] at h
    obtain ⟨⟨e1, ts1⟩, h1, ts2, -, ⟨x, ts3⟩, -, ⟨a, ts4⟩, h4, ts5, -, ⟨y, ts6⟩, -, h⟩ := h
    split at h
    · simp only [Option.bind_eq_some_iff] at h
      obtain ⟨_, -, _, -, _, -, h⟩ := h
      cases h
      exact ⟨hg h1, hg h4⟩
    · cases h
  · simp only [Option.bind_eq_bind, Option.bind_eq_some_iff] at h
    obtain ⟨⟨e1, ts1⟩, h1, h⟩ := h
    split at h
    · simp only [Option.bind_eq_some_iff] at h
      obtain ⟨t, ht, c, -, h⟩ := h
      cases h
      exact ⟨inScope_named hn ht, hg h1⟩
    · cases h
  · simp only [Option.bind_eq_bind, Option.bind_eq_some_iff] at h
    obtain ⟨t, ht, c, -, ⟨e1, ts1⟩, h1, ts2, -, h⟩ := h
    cases h
    exact ⟨inScope_named hn ht, hg h1⟩
  · simp only [Option.bind_eq_bind, Option.bind_eq_some_iff] at h
    obtain ⟨t, ht, c, -, h⟩ := h
    cases h
    exact inScope_named hn ht
  · cases h; trivial
  · cases h

theorem cexpr_within (hn : ∀ n ∈ names, n ∈ pub) (k : Nat) :
    ∀ {ts e ts'}, cexprP names k ts = some (e, ts') → CExpr.Within pub e := by
  induction k with
  | zero => nofun
  | succ k ih =>
    intro ts e ts' h
    simp only [cexprP, Option.bind_eq_bind, Option.bind_eq_some_iff] at h
    obtain ⟨⟨e1, ts1⟩, h1, h⟩ := h
    exact cpost_within hn ih k (cprimary_within hn ih h1) h

theorem cpieces_within : ∀ {ss : List Seg} {es : List CExpr} {ps : List CPiece}, cpieces ss es = some ps →
    (∀ e ∈ es, e.Within pub) → ∀ p ∈ ps, p.Within pub := by
  intro ss
  induction ss with
  | nil =>
    intro es ps h
    cases es with
    | nil => cases h; exact fun _ _ hp => nomatch hp
    | cons => cases h
  | cons s ss ih =>
    intro es ps h he
    cases s with
    | text s =>
      simp only [cpieces, Option.bind_eq_bind, Option.bind_eq_some_iff] at h
      obtain ⟨ps', h', h⟩ := h
      cases h
      exact List.forall_mem_cons.2 ⟨trivial, ih h' he⟩
    | hole c =>
      have h : ∃ k : CExpr → CPiece, (∀ e : CExpr, e.Within pub → (k e).Within pub) ∧
          (match (generalizing := false) (hole c).1, es with
          | [], e :: es => (cpieces ss es).bind fun ps => some (k e :: ps)
          | [], [] => none
          | n, es => (cpieces ss es).bind fun ps => some (k (.var (spell n 0)) :: ps)) = some ps := by
        simp only [cpieces, Option.bind_eq_bind] at h
        split at h
        · exact ⟨.display, fun _ h => h, h⟩
        · exact ⟨.debug, fun _ h => h, h⟩
        · cases h
      obtain ⟨k, hk, h⟩ := h
      revert he
      split at h <;> intro he
      · simp only [Option.bind_eq_some_iff] at h
        obtain ⟨ps', h', h⟩ := h
        cases h
        obtain ⟨h1, h2⟩ := List.forall_mem_cons.1 he
        exact List.forall_mem_cons.2 ⟨hk _ h1, ih h' h2⟩
      · cases h
      · simp only [Option.bind_eq_some_iff] at h
        obtain ⟨ps', h', h⟩ := h
        cases h
        exact List.forall_mem_cons.2 ⟨hk _ trivial, ih h' he⟩

theorem cuse_within : ∀ {us : List (List Nat)} {ns : List Nat}, cuseP pub us = some ns → ∀ n ∈ ns, n ∈ pub
  | [], _, h => by cases h; exact fun _ h => nomatch h
  | [] :: _, _, h => nomatch h
  | [_] :: _, _, h => nomatch h
  | (_ :: _ :: _ :: _) :: _, _, h => nomatch h
  | [r, n] :: us, ns, h => by
    unfold cuseP at h
    split at h
    · rename_i h2 h3
      cases h
      exact List.forall_mem_cons.2 ⟨any_mem h2, cuse_within h3⟩
    · cases h

theorem cstmts_within (k : Nat) : ∀ {names ts ss ts'}, (∀ n ∈ names, n ∈ pub) →
    cstmtsP pub k names ts = some (ss, ts') → CStmts.Within pub ss := by
  induction k with
  | zero => nofun
  | succ k ih =>
    intro names ts ss ts' hn h
    unfold cstmtsP at h
    split at h
    · cases h; trivial
    · simp only [Option.bind_eq_bind, Option.bind_eq_some_iff] at h
      obtain ⟨⟨us, ts1⟩, -, ts2, -, ns, hu, h⟩ := h
      refine ih (fun n hm => ?_) h
      obtain hm | hm := List.mem_append.1 hm
      · exact cuse_within hu n hm
      · exact hn n hm
    · simp only [Option.bind_eq_bind, Option.bind_eq_some_iff] at h
      obtain ⟨⟨b, ts1⟩, h1, ⟨ss1, ts2⟩, h2, h⟩ := h
      cases h
      exact ⟨ih hn h1, ih hn h2⟩
    · simp only [Option.bind_eq_bind, Option.bind_eq_some_iff] at h
      obtain ⟨t, -, ⟨e, ts1⟩, h1, ts2, -, ⟨ss1, ts3⟩, h2, h⟩ := h
      cases h
      exact ⟨cexpr_within hn k h1, ih hn h2⟩
    · split at h
      · simp only [Option.bind_eq_bind, Option.bind_eq_some_iff] at h
        obtain ⟨⟨e, ts1⟩, h1, ts2, -, ⟨b, ts3⟩, h2, ⟨ss1, ts4⟩, h3, h⟩ := h
        cases h
        exact ⟨cexpr_within hn k h1, ih hn h2, ih hn h3⟩
      · cases h
    · simp only [Option.bind_eq_bind, Option.bind_eq_some_iff] at h
      obtain ⟨⟨e, ts1⟩, h1, ts2, -, ts3, -, ⟨ss1, ts4⟩, h2, h⟩ := h
      cases h
      exact ⟨cexpr_within hn k h1, ih hn h2⟩
    · simp only [Option.bind_eq_bind, Option.bind_eq_some_iff] at h
      obtain ⟨⟨a, ts1⟩, h1, ts2, -, ⟨b, ts3⟩, h2, ts4, -, ts5, -, ⟨ss1, ts6⟩, h3, h⟩ := h
      cases h
      exact ⟨cexpr_within hn k h1, cexpr_within hn k h2, ih hn h3⟩
    · split at h
      · simp only [Option.bind_eq_bind] at h
        split at h
        · simp only [Option.bind_eq_some_iff, Option.map_eq_some_iff] at h
          obtain ⟨_, ⟨⟨e, ts1⟩, he, rfl⟩, ts2, -, ts3, -, ps, ⟨sg, -, hp⟩, ⟨ss1, ts4⟩, h2, h⟩ := h
          cases h
          exact ⟨cpieces_within hp fun _ hm => List.mem_singleton.1 hm ▸ cexpr_within hn k he, ih hn h2⟩
        · simp only [Option.bind_some, Option.bind_eq_some_iff] at h
          obtain ⟨ts2, -, ts3, -, ps, ⟨sg, -, hp⟩, ⟨ss1, ts4⟩, h2, h⟩ := h
          cases h
          exact ⟨cpieces_within hp (fun _ hm => nomatch hm), ih hn h2⟩
      · cases h
    · cases h

theorem body_within {f : Nat} : ∀ {ss b : CStmts}, ss.body f = some b → ss.Within pub → b.Within pub
  | .fn g c ss, b, h, hs => by
    unfold CStmts.body at h
    split at h
    · cases h; exact hs.1
    · exact body_within h hs.2
  | .done, _, h, _ => nomatch h
  | .let_ .., _, h, _ => nomatch h
  | .ifErr .., _, h, _ => nomatch h
  | .assert .., _, h, _ => nomatch h
  | .assertEq .., _, h, _ => nomatch h
  | .println .., _, h, _ => nomatch h

end Raki
