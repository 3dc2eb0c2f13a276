import Verif.Props.Grammar
import Verif.Source.Lexed
/-!
# The characters of the crate's files have one reading (C92)

C91 begins with tokens.  Here the lexer of `Verif.Source.Lexer` is compared with the lexical rules of
`Verif.Source.Lexical`, which say what each token is and that none is shorter than it could be; and both together lead
from the characters of the files to the program.
-/

namespace Raki

open Source

/-- **C92.** The lexer cuts a line as the rules say, and finds every way to cut it that they allow. -/
theorem C92_lines (l : List Nat) (ts : List Tok) :
    (∀ n, lexLine n l = some ts → Line l ts) ∧ (Line l ts → ∀ n, l.length ≤ n → lexLine n l = some ts) :=
  ⟨fun _ => lexLine_sound, lexLine_complete⟩

/-- **C92.** A line is cut in one way; so are the lines of files. -/
theorem C92_unambiguous : (∀ l ts us, Line l ts → Line l us → ts = us) ∧
    ∀ fs ts us, Tokens fs ts → Tokens fs us → ts = us :=
  ⟨fun _ _ _ => line_unique, fun _ _ _ => tokens_unique⟩

/-- **C92.** Names are told apart: two words that are the same token are the same word. -/
theorem C92_names {us vs : List Nat} {t : Tok} (hu : Means us t) (hv : Means vs t)
    (ht : (∃ k, t = .kw k) ∨ ∃ a, t = .name a) : us = vs := by
  obtain ⟨k, rfl⟩ | ⟨a, rfl⟩ := ht
  · cases hu
    cases hv
    rfl
  · cases hu with
    | name h _ =>
      generalize hx : spell us 0 = x at hv
      cases hv with
      | name h' _ => exact spell_inj (Run.bound h.1.2) (Run.bound h'.1.2) hx

theorem lexFiles_sound {fs : List (Nat × List (List Nat))} {us : List (Nat × List Tok)} (h : lexFiles fs = some us) :
    Tokens fs us := by
  induction fs generalizing us with
  | nil =>
    cases h
    exact .nil
  | cons f fs ih =>
    obtain ⟨ts, h1, h⟩ := Option.bind_eq_some_iff.1 h
    obtain ⟨vs, h2, h⟩ := Option.bind_eq_some_iff.1 h
    cases h
    exact .cons (lexLines_sound h1) (ih h2)

/-- The program a text stands for: it is cut into tokens by the lexical rules, and the tokens read by the grammar. -/
def Stands (test : Bool) (fs : List (String × List String)) (k : Crate) : Prop :=
  ∃ us, Tokens (fs.map fun (m, ls) => (spell (codes m) 0, ls.map codes)) us ∧ IsCrate test us k

/-- **C92.** No text stands for two programs. -/
theorem C92_one_program {test : Bool} {fs : List (String × List String)} {k l : Crate} (hk : Stands test fs k)
    (hl : Stands test fs l) : k = l := by
  obtain ⟨us, h1, h2⟩ := hk
  obtain ⟨vs, h3, h4⟩ := hl
  obtain rfl := tokens_unique h1 h3
  exact C91_one_crate h2 h4

/-- **C92.** The files of the crate stand for the program of C60 and C67, and for no other; compiled for its tests, for
the program of C76. -/
theorem C92_files : (∀ k, Stands false files k ↔ k = ⟨types, crate⟩) ∧
    ∀ k, Stands true files k ↔ k = ⟨types, testCrate⟩ := by
  obtain ⟨us, h, h1, h2⟩ := C91_files
  have h := lexFiles_sound h
  exact ⟨fun k => ⟨fun hk => C92_one_program hk ⟨us, h, (h1 _).2 rfl⟩, fun e => ⟨us, h, (h1 k).2 e⟩⟩,
    fun k => ⟨fun hk => C92_one_program hk ⟨us, h, (h2 _).2 rfl⟩, fun e => ⟨us, h, (h2 k).2 e⟩⟩⟩

/-- `1..=2` is three tokens, and what stands behind `//` is none. -/
example : Line (chars ['1', '.', '.', '=', '2', ' ', '/', '/', '.']) [.num 1 none, .op .dotDotEq, .num 2 none] :=
  lexLine_sound (n := 20) (by kernel_rfl)

/-- `>=` is one token, not two. -/
example : Line (chars ['>', '=']) [.op .ge] ∧ ¬ Line (chars ['>', '=']) [.op .gt, .op .eq] := by
  have h : Line (chars ['>', '=']) [.op .ge] := lexLine_sound (n := 2) (by kernel_rfl)
  refine ⟨h, fun h' => ?_⟩
  cases line_unique h h'

/-- `<=`, `'1'` and `1.5` are tokens the crate does not use, rather than two or three it does. -/
example : (∀ ts, ¬ Line (chars ['<', '=']) ts) ∧ (∀ ts, ¬ Line (chars ['\'', '1', '\'']) ts) ∧
    ∀ ts, ¬ Line (chars ['1', '.', '5']) ts := by
  refine ⟨fun ts h => ?_, fun ts h => ?_, fun ts h => ?_⟩
  · cases (lexLine_complete h 3 (by decide)).symm.trans (show lexLine 3 (chars ['<', '=']) = none from rfl)
  · cases (lexLine_complete h 3 (by decide)).symm.trans (show lexLine 3 (chars ['\'', '1', '\'']) = none from rfl)
  · cases (lexLine_complete h 3 (by decide)).symm.trans (show lexLine 3 (chars ['1', '.', '5']) = none from rfl)

/-- `0x1f_u8` is the number 31. -/
example : Means (chars ['0', 'x', '1', 'f', '_', 'u', '8']) (.num 31 (some .u8)) :=
  .num (b := 16) (n := (0 * 16 + 1) * 16 + 15) (ds := chars ['1', 'f', '_']) .sixteen
    (.under (.digit (d := 15) (.digit (d := 1) .nil (by decide)) (by decide))) ⟨49, by decide, by decide⟩ .u8
    fun c h => by cases h; exact ⟨by decide, by decide⟩

end Raki
