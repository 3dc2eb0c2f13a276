import Verif.Source.Parser
/-!
# What format strings say

The rules of `std::fmt` for the format strings of the crate, stated without an algorithm: text stands for itself, and
`{..}` for an argument.  `Cuts s ss` says how a string falls into texts and holes, `Hole h n sp` what name and what
format the inside of a hole gives, and `Filled ss es ps` which argument each hole shows.
-/

namespace Raki.Source

/-- Free of `{` and `}`; doubled braces, which stand for themselves, are not used by the crate. -/
def NoBrace (s : List Nat) : Prop := ∀ c ∈ s, c ≠ '{'.toNat ∧ c ≠ '}'.toNat

/-- Here the text before ends: at the end or at a brace that opens. -/
def Opens : List Nat → Prop
  | [] => True
  | c :: _ => c = '{'.toNat

/-- How a format string falls into texts and holes. -/
inductive Cuts : List Nat → List Seg → Prop where
  | nil : Cuts [] []
  | text {t s ss} : t ≠ [] → NoBrace t → Opens s → Cuts s ss → Cuts (t ++ s) (.text t :: ss)
  | hole {h s ss} : NoBrace h → Cuts s ss → Cuts ('{'.toNat :: h ++ '}'.toNat :: s) (.hole h :: ss)

theorem cut_nil (acc : List Nat) (ss : List Seg) :
    cut acc false [] = some ss ↔ (acc = [] ∧ ss = []) ∨ (acc ≠ [] ∧ ss = [.text acc.reverse]) := by
  cases acc with
  | nil => simp [cut, eq_comm]
  | cons a as => simp [cut, eq_comm]

theorem cut_cons (acc : List Nat) (b : Bool) (c : Nat) (s : List Nat) :
    cut acc b (c :: s) = (match Nat.beq c 123, Nat.beq c 125, b with
      | true, _, true => none
      | true, _, false => (match acc with
        | [] => cut [] true s
        | _ => (match cut [] true s with
          | some ss => some (.text acc.reverse :: ss)
          | none => none))
      | _, true, false => none
      | _, true, true => (match cut [] false s with
        | some ss => some (.hole acc.reverse :: ss)
        | none => none)
      | false, false, b => cut (c :: acc) b s) := by
  cases acc <;> cases b <;> rfl

theorem cut_plain {c : Nat} (hc : c ≠ 123 ∧ c ≠ 125) (acc : List Nat) (b : Bool) (s : List Nat) :
    cut acc b (c :: s) = cut (c :: acc) b s := by
  have h1 : Nat.beq c 123 = false := by
    cases h : Nat.beq c 123
    · rfl
    · exact absurd (Nat.eq_of_beq_eq_true h) hc.1
  have h2 : Nat.beq c 125 = false := by
    cases h : Nat.beq c 125
    · rfl
    · exact absurd (Nat.eq_of_beq_eq_true h) hc.2
  rw [cut_cons, h1, h2]

theorem cut_plains {t : List Nat} (ht : NoBrace t) (acc : List Nat) (b : Bool) (s : List Nat) :
    cut acc b (t ++ s) = cut (t.reverse ++ acc) b s := by
  induction t generalizing acc with
  | nil => rfl
  | cons c t ih =>
    rw [List.cons_append, cut_plain (ht c (List.mem_cons_self ..)), ih fun d h => ht d (List.mem_cons_of_mem _ h)]
    simp

theorem cut_open (acc s : List Nat) : cut acc false (123 :: s) = (cut [] true s).map fun ss =>
    (match acc with | [] => ss | _ => .text acc.reverse :: ss) := by
  rw [cut_cons, show Nat.beq 123 123 = true from rfl]
  cases acc <;> cases cut [] true s <;> rfl

theorem cut_close (acc s : List Nat) :
    cut acc true (125 :: s) = (cut [] false s).map (.hole acc.reverse :: ·) := by
  rw [cut_cons, show Nat.beq 125 123 = false from rfl, show Nat.beq 125 125 = true from rfl]
  cases cut [] false s <;> rfl

theorem cuts_nil {ss : List Seg} (h : Cuts [] ss) : ss = [] := by
  generalize hs : ([] : List Nat) = s at h
  cases h with
  | nil => rfl
  | text ht => exact absurd (List.nil_eq_append_iff.1 hs).1 ht
  | hole => simp at hs

theorem cut_complete {s : List Nat} {ss : List Seg} (h : Cuts s ss) : cut [] false s = some ss := by
  induction h with
  | nil => rfl
  | @text t s ss ht hn ho hs ih =>
    rw [cut_plains hn, List.append_nil]
    cases s with
    | nil =>
      cases cuts_nil hs
      exact (cut_nil _ _).2 (.inr ⟨by simpa using ht, by simp⟩)
    | cons c s =>
      cases (show c = 123 from ho)
      rw [cut_open] at ih ⊢
      cases e : cut [] true s with
      | none => rw [e] at ih; cases ih
      | some us =>
        rw [e] at ih
        cases ih
        cases h : t.reverse with
        | nil => exact absurd (by simpa using h) ht
        | cons a as => simp only [Option.map_some]; rw [← h, List.reverse_reverse]
  | @hole h s ss hn hs ih =>
    rw [List.cons_append]
    rw [show ('{'.toNat) = 123 from rfl, show ('}'.toNat) = 125 from rfl, cut_open, cut_plains hn, List.append_nil,
      cut_close, ih]
    simp

theorem NoBrace.append {s t : List Nat} (hs : NoBrace s) (ht : NoBrace t) : NoBrace (s ++ t) :=
  fun c h => (List.mem_append.1 h).elim (hs c) (ht c)

theorem NoBrace.reverse {s : List Nat} (hs : NoBrace s) : NoBrace s.reverse := fun c h => hs c (List.mem_reverse.1 h)

theorem NoBrace.cons {c : Nat} {s : List Nat} (hc : c ≠ 123 ∧ c ≠ 125) (hs : NoBrace s) : NoBrace (c :: s) :=
  fun d h => by
    cases h with
    | head => exact hc
    | tail _ h => exact hs d h

theorem cut_sound {s acc : List Nat} {b : Bool} {ss : List Seg} (ha : NoBrace acc) (h : cut acc b s = some ss) :
    Cuts ((if b then ['{'.toNat] else []) ++ acc.reverse ++ s) ss := by
  induction s generalizing acc b ss with
  | nil =>
    cases b with
    | true => rw [cut] at h; cases h
    | false =>
      obtain ⟨rfl, rfl⟩ | ⟨hn, rfl⟩ := (cut_nil _ _).1 h
      · exact .nil
      · exact .text (by simpa using hn) ha.reverse trivial .nil
  | cons c s ih =>
    by_cases h1 : c = 123
    · subst h1
      cases b with
      | true =>
        rw [cut_cons, show Nat.beq 123 123 = true from rfl] at h
        cases h
      | false =>
        rw [cut_open] at h
        obtain ⟨us, h', e⟩ := Option.map_eq_some_iff.1 h
        have hc := ih (acc := []) (fun _ h => nomatch h) h'
        cases acc with
        | nil =>
          cases e
          exact hc
        | cons a as =>
          cases e
          exact .text (by simp) ha.reverse rfl hc
    · by_cases h2 : c = 125
      · subst h2
        cases b with
        | false =>
          rw [cut_cons, show Nat.beq 125 123 = false from rfl, show Nat.beq 125 125 = true from rfl] at h
          cases h
        | true =>
          rw [cut_close] at h
          obtain ⟨us, h', rfl⟩ := Option.map_eq_some_iff.1 h
          have hc := ih (acc := []) (fun _ h => nomatch h) h'
          have := Cuts.hole ha.reverse hc
          simpa using this
      · rw [cut_plain ⟨h1, h2⟩] at h
        have := ih (ha.cons ⟨h1, h2⟩) h
        simpa using this

/-- The inside of a hole: a name or nothing, and after a colon a format. -/
inductive Hole : List Nat → List Nat → Spec → Prop where
  | plain {n} : ':'.toNat ∉ n → Hole n n .display
  | empty {n} : ':'.toNat ∉ n → Hole (n ++ [':'.toNat]) n .display
  | hex {n} : ':'.toNat ∉ n → Hole (n ++ [':'.toNat, 'x'.toNat]) n .lowerHex
  | altHex {n} : ':'.toNat ∉ n → Hole (n ++ [':'.toNat, '#'.toNat, 'x'.toNat]) n .altLowerHex

theorem hole_plain {n : List Nat} (hn : 58 ∉ n) : hole n = (n, []) := by
  induction n with
  | nil => rfl
  | cons c n ih =>
    have hc : Nat.beq c 58 = false := by
      cases h : Nat.beq c 58
      · rfl
      · exact absurd (Nat.eq_of_beq_eq_true h ▸ List.mem_cons_self ..) hn
    rw [hole, hc, ih fun h => hn (List.mem_cons_of_mem _ h)]

theorem hole_colon {n : List Nat} (hn : 58 ∉ n) (s : List Nat) : hole (n ++ 58 :: s) = (n, s) := by
  induction n with
  | nil => rfl
  | cons c n ih =>
    have hc : Nat.beq c 58 = false := by
      cases h : Nat.beq c 58
      · rfl
      · exact absurd (Nat.eq_of_beq_eq_true h ▸ List.mem_cons_self ..) hn
    rw [List.cons_append, hole, hc, ih fun h => hn (List.mem_cons_of_mem _ h)]

theorem hole_cases (h : List Nat) : (58 ∉ h) ∨ ∃ n s, 58 ∉ n ∧ h = n ++ 58 :: s := by
  induction h with
  | nil => exact .inl fun h => nomatch h
  | cons c h ih =>
    by_cases hc : c = 58
    · exact .inr ⟨[], h, by simp, by rw [hc]; rfl⟩
    · obtain ih | ⟨n, s, hn, rfl⟩ := ih
      · exact .inl fun h => by
          cases h with
          | head => exact hc rfl
          | tail _ h => exact ih h
      · exact .inr ⟨c :: n, s, fun h => by
          cases h with
          | head => exact hc rfl
          | tail _ h => exact hn h, rfl⟩

theorem hole_iff (h n : List Nat) (sp : Spec) : ((hole h).1 = n ∧ holeSpec (hole h).2 = some sp) ↔ Hole h n sp := by
  constructor
  · rintro ⟨rfl, hs⟩
    obtain hc | ⟨n, s, hn, rfl⟩ := hole_cases h
    · rw [hole_plain hc] at hs ⊢
      cases hs
      exact .plain hc
    · rw [hole_colon hn] at hs ⊢
      simp only [holeSpec] at hs ⊢
      split at hs <;> cases hs
      · exact .empty hn
      · exact .hex hn
      · exact .altHex hn
  · rintro (hn | hn | hn | hn)
    · rw [hole_plain hn]; exact ⟨rfl, rfl⟩
    · exact ⟨congrArg Prod.fst (hole_colon hn _), congrArg (fun p => holeSpec p.2) (hole_colon hn _)⟩
    · exact ⟨congrArg Prod.fst (hole_colon hn _), congrArg (fun p => holeSpec p.2) (hole_colon hn _)⟩
    · exact ⟨congrArg Prod.fst (hole_colon hn _), congrArg (fun p => holeSpec p.2) (hole_colon hn _)⟩

/-- Which argument each hole shows: one without a name the next of those behind the string, all of which are shown, and
one with a name the variable. -/
inductive Filled : List Seg → List Expr → Pieces → Prop where
  | nil : Filled [] [] .nil
  | text {s ss es ps} : Filled ss es ps →
      Filled (.text s :: ss) es (.text (String.ofList (s.map Char.ofNat)) ps)
  | next {h sp ss e es ps} : Hole h [] sp → Filled ss es ps → Filled (.hole h :: ss) (e :: es) (.arg sp e ps)
  | named {h n sp x ss es ps} : Hole h n sp → n ≠ [] → ident (spell n 0) = some x → Filled ss es ps →
      Filled (.hole h :: ss) es (.arg sp (.var x) ps)

theorem pieces_complete {ss : List Seg} {es : List Expr} {ps : Pieces} (h : Filled ss es ps) :
    pieces ss es = some ps := by
  induction h with
  | nil => rfl
  | text _ ih => rw [pieces, ih]; rfl
  | next hh _ ih =>
    obtain ⟨h1, h2⟩ := (hole_iff _ _ _).2 hh
    simp only [pieces, h1, h2, ih, Option.bind_eq_bind, Option.bind_some]
  | @named h n sp x ss es ps hh hn hx _ ih =>
    obtain ⟨h1, h2⟩ := (hole_iff _ _ _).2 hh
    cases n with
    | nil => exact absurd rfl hn
    | cons c n => simp only [pieces, h1, h2, ih, hx, Option.bind_eq_bind, Option.bind_some]

theorem pieces_sound {ss : List Seg} {es : List Expr} {ps : Pieces} (h : pieces ss es = some ps) : Filled ss es ps := by
  induction ss generalizing es ps with
  | nil =>
    cases es with
    | nil => cases h; exact .nil
    | cons e es => cases h
  | cons g ss ih =>
    cases g with
    | text s =>
      obtain ⟨qs, hq, h⟩ := Option.bind_eq_some_iff.1 h
      cases h
      exact .text (ih hq)
    | hole g =>
      obtain ⟨sp, hs, h⟩ := Option.bind_eq_some_iff.1 h
      have hh := (hole_iff g _ sp).1 ⟨rfl, hs⟩
      generalize (hole g).1 = n at h hh
      cases n with
      | nil =>
        cases es with
        | nil => cases h
        | cons e es =>
          obtain ⟨qs, hq, h⟩ := Option.bind_eq_some_iff.1 h
          cases h
          exact .next hh (ih hq)
      | cons c n =>
        obtain ⟨x, hx, h⟩ := Option.bind_eq_some_iff.1 h
        obtain ⟨qs, hq, h⟩ := Option.bind_eq_some_iff.1 h
        cases h
        exact .named hh (by simp) hx (ih hq)

end Raki.Source
