import Verif.Lemmas.Writes
import Verif.Props.Display
/-!
# Printing into any sink (C65)
-/

namespace Raki

open Spec

namespace Spec

/-- The sink accepts the pieces one after another and ends in the given state. -/
inductive Accepts {σ : Type} (w : σ → String → σ × Bool) : σ → List String → σ → Prop
  | nil (s) : Accepts w s [] s
  | cons {s s' s'' c cs} : w s c = (s', true) → Accepts w s' cs s'' → Accepts w s (c :: cs) s''

/-- The sink accepts some pieces and refuses the next one, ending in the given state. -/
def Refuses {σ : Type} (w : σ → String → σ × Bool) (s : σ) (cs : List String) (s' : σ) : Prop :=
  ∃ a c b t, cs = a ++ c :: b ∧ Accepts w s a t ∧ w t c = (s', false)

/-- A sink that can be read back: `view` is the text it holds.  It may take part of a piece and may refuse,
but what it takes is appended, and an accepted piece is taken whole. -/
def Records {σ : Type} (w : σ → String → σ × Bool) (view : σ → List Char) : Prop :=
  ∀ s c, ∃ p, view (w s c).1 = view s ++ p ∧ p <+: c.toList ∧ ((w s c).2 = true → p = c.toList)

end Spec

theorem writePieces_out {σ : Type} (w : Sink σ) (cs : List String) (s : σ) :
    (∃ s', Accepts w s cs s' ∧ writePieces w cs s = .ok s' ()) ∨
    (∃ s', Refuses w s cs s' ∧ writePieces w cs s = .err s') := by
  induction cs generalizing s with
  | nil => exact .inl ⟨s, .nil s, rfl⟩
  | cons c cs ih =>
    rcases h : w s c with ⟨s1, _ | _⟩
    · refine .inr ⟨s1, ⟨[], c, cs, s, rfl, .nil s, h⟩, ?_⟩
      rw [writePieces, h]
    · have e : writePieces w (c :: cs) s = writePieces w cs s1 := by rw [writePieces, h]
      rcases ih s1 with ⟨s', ha, ho⟩ | ⟨s', ⟨a, d, b, t, rfl, ha, hw⟩, ho⟩
      · exact .inl ⟨s', .cons h ha, e.trans ho⟩
      · exact .inr ⟨s', ⟨c :: a, d, b, t, rfl, .cons h ha, hw⟩, e.trans ho⟩

/-- C65.  Printing into a sink panics exactly when there is no text, and then nothing has been written. -/
theorem C65_panics_before_writing {σ : Type} (w : Sink σ) (s : σ) (i : Instruction) :
    (i.fmt = .panic → i.fmtTo w s = .panic s) ∧
    (∀ s', i.fmtTo w s = .panic s' → s' = s ∧ i.fmt = .panic) := by
  have h := fmtTo_agree w s i
  constructor
  · intro hp
    rcases h with ⟨-, h, -⟩ | ⟨cs, h, -, -⟩
    · exact h
    · rw [hp] at h; cases h
  · intro s' hp
    rcases h with ⟨ht, h, -⟩ | ⟨cs, -, h, -⟩
    · rw [h] at hp; injection hp with hp; exact ⟨hp.symm, ht⟩
    · rw [h] at hp
      rcases writePieces_out w cs s with ⟨_, -, e⟩ | ⟨_, -, e⟩ <;> (rw [e] at hp; cases hp)

/-- C65.  Otherwise the text is handed to the sink piece by piece; the result is `Ok` if all pieces are
accepted, and after the first refusal it is `Err` and nothing more is written. -/
theorem C65_pieces {σ : Type} (w : Sink σ) (s : σ) (i : Instruction) (t : String) (ht : i.fmt = .ok t) :
    ∃ cs, cs.foldr (· ++ ·) "" = t ∧
      ((∃ s', Accepts w s cs s' ∧ i.fmtTo w s = .ok s' ()) ∨
       (∃ s', Refuses w s cs s' ∧ i.fmtTo w s = .err s')) := by
  rcases fmtTo_agree w s i with ⟨h, -, -⟩ | ⟨cs, h, e, -⟩
  · rw [ht] at h; cases h
  · rw [ht] at h; injection h with h
    refine ⟨cs, by rw [h, join_pieces], ?_⟩
    rw [e]
    exact writePieces_out w cs s

theorem accepts_view {σ : Type} {w : Sink σ} {view : σ → List Char} (hw : Records w view) {s s' : σ}
    {cs : List String} (h : Accepts w s cs s') : view s' = view s ++ (cs.foldr (· ++ ·) "").toList := by
  induction h with
  | nil => simp
  | cons h _ ih =>
    rename_i s s1 s2 c cs _
    obtain ⟨p, e, -, hp⟩ := hw s c
    rw [h] at e hp
    rw [ih, e, hp rfl]
    simp [String.toList_append]

/-- C65.  A sink that keeps what it takes ends up with a prefix of the text; with the whole text if `fmt`
returns `Ok`. -/
theorem C65_prefix {σ : Type} (w : Sink σ) (view : σ → List Char) (hw : Records w view) (s : σ)
    (i : Instruction) (t : String) (ht : i.fmt = .ok t) :
    (∀ s', i.fmtTo w s = .ok s' () → view s' = view s ++ t.toList) ∧
    (∀ s', i.fmtTo w s = .err s' → ∃ p, p <+: t.toList ∧ view s' = view s ++ p) := by
  obtain ⟨cs, rfl, h⟩ := C65_pieces w s i t ht
  constructor
  · intro s' e
    rcases h with ⟨s1, ha, e'⟩ | ⟨s1, -, e'⟩
    · rw [e] at e'; injection e' with e'; subst e'
      exact accepts_view hw ha
    · rw [e] at e'; cases e'
  · intro s' e
    rcases h with ⟨s1, -, e'⟩ | ⟨s1, ⟨a, c, b, t, rfl, ha, hc⟩, e'⟩
    · rw [e] at e'; cases e'
    · rw [e] at e'; injection e' with e'; subst e'
      obtain ⟨p, hp, hpre, -⟩ := hw t c
      rw [hc] at hp
      refine ⟨(a.foldr (· ++ ·) "").toList ++ p, ?_, ?_⟩
      · obtain ⟨q, hq⟩ := hpre
        refine ⟨q ++ (b.foldr (· ++ ·) "").toList, ?_⟩
        rw [foldr_text]
        simp only [List.foldr_cons, String.toList_append, ← hq, List.append_assoc]
      · rw [hp, accepts_view hw ha, List.append_assoc]

/-- C65.  A sink that refuses nothing gets the whole text (`to_string`, `format!`, `println!`). -/
theorem C65_to_string {σ : Type} (w : Sink σ) (view : σ → List Char) (hw : Records w view)
    (hn : ∀ s c, (w s c).2 = true) (s : σ) (i : Instruction) (t : String) (ht : i.fmt = .ok t) :
    ∃ s', i.fmtTo w s = .ok s' () ∧ view s' = view s ++ t.toList := by
  obtain ⟨cs, -, h⟩ := C65_pieces w s i t ht
  rcases h with ⟨s1, -, e⟩ | ⟨s1, ⟨a, c, b, t', -, -, hc⟩, -⟩
  · exact ⟨s1, e, (C65_prefix w view hw s i t ht).1 s1 e⟩
  · have := hn t' c; rw [hc] at this; cases this

/-- C65.  A buffer with room for `n` characters: printing into the empty buffer succeeds exactly when the
text fits. -/
theorem C65_buffer (n : Nat) (i : Instruction) (t : String) (ht : i.fmt = .ok t) :
    let w : Sink (List Char) := fun s c =>
      if s.length + c.length ≤ n then (s ++ c.toList, true) else (s, false)
    (t.length ≤ n ↔ ∃ s', i.fmtTo w [] = .ok s' ()) ∧
    (n < t.length ↔ ∃ s', i.fmtTo w [] = .err s') := by
  intro w
  have hw : Records w id := by
    intro s c
    by_cases h : s.length + c.length ≤ n
    · exact ⟨c.toList, by simp [w, h], List.prefix_refl _, fun _ => rfl⟩
    · exact ⟨[], by simp [w, h], List.nil_prefix, by simp [w, h]⟩
  have acc : ∀ {s cs s'}, Accepts w s cs s' → s.length ≤ n → s'.length ≤ n := by
    intro s cs s' h
    induction h with
    | nil => exact id
    | cons h _ ih =>
      rename_i s s1 s2 c cs _
      intro hs
      apply ih
      by_cases hl : s.length + c.length ≤ n
      · simp only [w, hl, if_true, Prod.mk.injEq] at h
        rw [← h.1]; simpa [String.length_toList] using hl
      · simp [w, hl] at h
  obtain ⟨cs, rfl, h⟩ := C65_pieces w [] i t ht
  have yes : ∀ s', Accepts w [] cs s' → (cs.foldr (· ++ ·) "").length ≤ n := by
    intro s' ha
    have h1 := acc ha (Nat.zero_le _)
    have h2 := accepts_view hw ha
    simp only [id, List.nil_append] at h2
    rw [h2] at h1; simpa [String.length_toList] using h1
  have no : ∀ s', Refuses w [] cs s' → n < (cs.foldr (· ++ ·) "").length := by
    rintro s' ⟨a, c, b, t', rfl, ha, hc⟩
    have h2 := accepts_view hw ha
    simp only [id, List.nil_append] at h2
    by_cases hl : t'.length + c.length ≤ n
    · simp [w, hl] at hc
    · rw [foldr_text]
      rw [h2] at hl
      simp only [List.foldr_cons, String.length_append, String.length_toList] at hl ⊢
      omega
  rcases h with ⟨s1, ha, e⟩ | ⟨s1, ha, e⟩
  · have := yes _ ha
    refine ⟨⟨fun _ => ⟨_, e⟩, fun _ => this⟩, ⟨fun h => by omega, fun ⟨s', e'⟩ => ?_⟩⟩
    rw [e] at e'; cases e'
  · have := no _ ha
    refine ⟨⟨fun h => by omega, fun ⟨s', e'⟩ => ?_⟩, ⟨fun _ => ⟨_, e⟩, fun _ => this⟩⟩
    rw [e] at e'; cases e'

/-- A buffer that takes what fits and then refuses, with the text it holds. -/
example : Records (fun (s : List Char) c => (s ++ c.toList.take (8 - s.length), decide (s.length + c.length ≤ 8)))
    id := by
  intro s c
  refine ⟨c.toList.take (8 - s.length), rfl, List.take_prefix _ _, fun h => List.take_of_length_le ?_⟩
  have h : s.length + c.length ≤ 8 := by simpa using h
  rw [String.length_toList]; omega
example : ∃ i, Decoded i ∧ i.fmt = .ok "addi ra, zero, -5" ∧
    i.fmtTo (fun (s : List Char) c => (s ++ c.toList.take (8 - s.length), decide (s.length + c.length ≤ 8))) []
      = .err "addi ra,".toList :=
  ⟨_, .inl ⟨0xffb00093, .Rv64, rfl⟩, rfl, rfl⟩
example : ∃ i, Decoded i ∧ i.fmt = .panic ∧ i.fmtTo (fun (s : List String) c => (s ++ [c], true)) ["x"] = .panic ["x"] :=
  ⟨_, .inl ⟨0xcdc0c073, .Rv64, rfl⟩, rfl, rfl⟩

end Raki
