import Verif.Source.ItemsComplete
import Verif.Source.Parsed
/-!
# The crate's text has one reading (C91)

C67 and C76 read the crate's files with the reader of `Verif.Source.Parser`.  Here the reader is compared with the
grammar of `Verif.Source.Grammar` and `Verif.Source.Items`, which says what a text means without saying how to read it:
whatever the reader reads has that meaning, whatever has a meaning is read, and nothing has two.
-/

namespace Raki

open Source

/-- **C91.** What the reader takes for an expression, a block, a pattern or a type is one. -/
theorem C91_sound (n : Nat) (c : Ctx) (ts rest : List Tok) :
    (∀ e, (rules n).expr c 0 ts = some (e, rest) → ∃ us, ts = us ++ rest ∧ Phrase .whole c us e) ∧
    (∀ e, blockP (rules n) c ts = some (e, rest) → ∃ us, ts = us ++ rest ∧ Phrase .block c us e) ∧
    (∀ p, (rules n).pat c ts = some (p, rest) → ∃ us, ts = us ++ rest ∧ Phrase .pat c us p) ∧
    (∀ t, (rules n).ty c ts = some (t, rest) → ∃ us, ts = us ++ rest ∧ Phrase .ty c us t) :=
  ⟨fun _ h => (rules_sound n).whole h, fun _ h => blockP_sound (rules_sound n) h, fun _ h => (rules_sound n).pat h,
    fun _ h => (rules_sound n).ty h⟩

/-- **C91.** Every expression is read as such, whatever follows it that cannot go on with it; so is every block, every
pattern and every type. -/
theorem C91_complete (c : Ctx) (us : List Tok) :
    (∀ e, Phrase .whole c us e → ∀ rest, Ends c 0 rest →
      ∃ N, ∀ n, N ≤ n → (rules n).expr c 0 (us ++ rest) = some (e, rest)) ∧
    (∀ e, Phrase .block c us e → ∀ rest, ∃ N, ∀ n, N ≤ n → blockP (rules n) c (us ++ rest) = some (e, rest)) ∧
    (∀ p, Phrase .pat c us p → ∀ rest, StartsNot (.op .colon2) rest → StartsNot (.op .lparen) rest →
      StartsNot (.op .dotDotEq) rest → StartsNot (.op .bar) rest →
      ∃ N, ∀ n, N ≤ n → (rules n).pat c (us ++ rest) = some (p, rest)) ∧
    (∀ t, Phrase .ty c us t → ∀ rest, StartsNot (.op .lt) rest → StartsNot (.op .colon2) rest →
      ∃ N, ∀ n, N ≤ n → (rules n).ty c (us ++ rest) = some (t, rest)) :=
  ⟨fun _ h => complete h, fun _ h => complete h, fun _ h => complete h, fun _ h => complete h⟩

theorem deep_unique {α : Type} {f : Rules → Option α} {x y : α} (hx : Deep f x) (hy : Deep f y) : x = y := by
  obtain ⟨N, hx⟩ := hx
  obtain ⟨M, hy⟩ := hy
  exact Option.some.inj ((hx (N + M) (by omega)).symm.trans (hy (N + M) (by omega)))

theorem post_nil (c : Ctx) (e : Expr) : Deep (fun r => r.post c e []) (e, []) :=
  Deep.step (f := fun _ => some (e, [])) (.const fun _ => rfl) fun _ => rfl

theorem more_nil (c : Ctx) {l : Nat} (hl : l ≤ 5) (e : Expr) : Deep (fun r => more r c l e []) (e, []) := by
  obtain rfl | hl := Nat.lt_or_eq_of_le hl |>.symm
  · exact Deep.step (f := fun _ => some (e, [])) (.const fun _ => rfl) fun _ => rfl
  · refine Deep.step (f := fun _ => some (e, [])) (.const fun _ => rfl) fun _ => ?_
    rcases l with _ | _ | _ | _ | _ | l
    all_goals first | rfl | omega

theorem starts_nil (t : Tok) : StartsNot t [] := fun _ h => by cases h

theorem ends_nil (c : Ctx) (l : Nat) : Ends c l [] := fun _ _ h => by cases h

/-- **C91.** No text has two readings: tokens that form a phrase of some kind do so in one way. -/
theorem C91_unambiguous {k : Cat} (hk : ∀ o, k = .args o → o = .rparen ∨ o = .rbrack) {c : Ctx} {us : List Tok}
    {v w : k.Tree} (hv : Phrase k c us v) (hw : Phrase k c us w) : v = w := by
  have hv := complete hv
  have hw := complete hw
  cases k with
  | ty => exact congrArg Prod.fst (deep_unique (hv [] (starts_nil _) (starts_nil _))
      (hw [] (starts_nil _) (starts_nil _)))
  | tyArgs => exact congrArg Prod.fst (deep_unique (hv.2 [] (starts_nil _)) (hw.2 [] (starts_nil _)))
  | segs => exact congrArg Prod.fst (deep_unique (hv [] (starts_nil _)) (hw [] (starts_nil _)))
  | path => exact congrArg Prod.fst (deep_unique (hv [] (starts_nil _)) (hw [] (starts_nil _)))
  | ctor =>
    have h1 := hv [] (.ctor v.1 v.2, []) (starts_nil _) (.const fun _ => rfl)
    have h2 := hw [] (.ctor w.1 w.2, []) (starts_nil _) (.const fun _ => rfl)
    have := congrArg Prod.fst (deep_unique h1 h2)
    obtain ⟨v1, v2⟩ := v
    obtain ⟨w1, w2⟩ := w
    cases this
    rfl
  | pat1 => exact congrArg Prod.fst (deep_unique (hv [] (starts_nil _) (starts_nil _) (starts_nil _))
      (hw [] (starts_nil _) (starts_nil _) (starts_nil _)))
  | pat => exact congrArg Prod.fst (deep_unique (hv [] (starts_nil _) (starts_nil _) (starts_nil _) (starts_nil _))
      (hw [] (starts_nil _) (starts_nil _) (starts_nil _) (starts_nil _)))
  | args o => exact congrArg Prod.fst (deep_unique (hv (hk o rfl) []) (hw (hk o rfl) []))
  | whole => exact congrArg Prod.fst (deep_unique (hv [] (ends_nil _ _)) (hw [] (ends_nil _ _)))
  | expr l => exact congrArg Prod.fst (deep_unique (hv.2 [] _ (ends_nil _ _) (more_nil c hv.1 v))
      (hw.2 [] _ (ends_nil _ _) (more_nil c hv.1 w)))
  | unary => exact congrArg Prod.fst (deep_unique (hv [] (ends_nil _ _)) (hw [] (ends_nil _ _)))
  | post => exact congrArg Prod.fst (deep_unique (hv [] _ (ends_nil _ _) (post_nil c v))
      (hw [] _ (ends_nil _ _) (post_nil c w)))
  | prim => exact congrArg Prod.fst (deep_unique (hv [] (starts_nil _) fun _ => ends_nil _ _)
      (hw [] (starts_nil _) fun _ => ends_nil _ _))
  | block => exact congrArg Prod.fst (deep_unique (hv []) (hw []))
  | arms => exact congrArg Prod.fst (deep_unique (hv []) (hw []))
  | fields => exact congrArg Prod.fst (deep_unique (hv []) (hw []))
  | params => exact congrArg Prod.fst (deep_unique (hv [] _ (Nat.le_refl _)) (hw [] _ (Nat.le_refl _)))
  | annot => exact congrArg Prod.fst (deep_unique (hv [] (starts_nil _) (starts_nil _) (starts_nil _))
      (hw [] (starts_nil _) (starts_nil _) (starts_nil _)))
  | sides => exact congrArg Prod.fst (deep_unique (hv []) (hw []))
  | stmts => exact congrArg Prod.fst (deep_unique (hv []) (hw []))
  | bare => exact congrArg Prod.fst (deep_unique (hv []) (hw []))

/-- **C91.** The reader reads just the crates of the grammar, if it may nest deep enough. -/
theorem C91_crates (test : Bool) (fs : List (Nat × List Tok)) (k : Crate) :
    (∃ n, crateN n test fs = some k) ↔ IsCrate test fs k := by
  constructor
  · rintro ⟨n, h⟩
    exact crateN_sound h
  · intro h
    obtain ⟨N, h⟩ := crateN_complete h
    exact ⟨N, h N (Nat.le_refl N)⟩

/-- **C91.** No files make up two crates. -/
theorem C91_one_crate {test : Bool} {fs : List (Nat × List Tok)} {k l : Crate} (hk : IsCrate test fs k)
    (hl : IsCrate test fs l) : k = l := by
  obtain ⟨N, hk⟩ := crateN_complete hk
  obtain ⟨M, hl⟩ := crateN_complete hl
  exact Option.some.inj ((hk (N + M) (by omega)).symm.trans (hl (N + M) (by omega)))

/-- **C91.** The text of the crate has one reading, the program the model was taken from; compiled for its tests, the
program of C76. -/
theorem C91_files : ∃ us, lexFiles (files.map fun (m, ls) => (spell (codes m) 0, ls.map codes)) = some us ∧
    (∀ k, IsCrate false us k ↔ k = ⟨types, crate⟩) ∧ ∀ k, IsCrate true us k ↔ k = ⟨types, testCrate⟩ := by
  have h {us : List (Nat × List Tok)} {k l : Crate}
      (hu : lexFiles (files.map fun (m, ls) => (spell (codes m) 0, ls.map codes)) = some us)
      (h1 : crateP false us = some k) (h2 : crateP true us = some l) :
      ∃ us, lexFiles (files.map fun (m, ls) => (spell (codes m) 0, ls.map codes)) = some us ∧
        (∀ j, IsCrate false us j ↔ j = k) ∧ ∀ j, IsCrate true us j ↔ j = l :=
    ⟨us, hu, fun _ => ⟨fun h => C91_one_crate h (crateN_sound h1), fun h => h ▸ crateN_sound h1⟩,
      fun _ => ⟨fun h => C91_one_crate h (crateN_sound h2), fun h => h ▸ crateN_sound h2⟩⟩
  exact h lex_files parse_tokens parse_test_tokens

/-- The codes of some characters. -/
abbrev codesOf (cs : List Char) : List Nat := cs.map Char.toNat

/-- **C91.** Format strings are cut at their holes and the holes filled as the rules say; there is at most one way. -/
theorem C91_formats (s : List Nat) (es : List Expr) (ss : List Seg) (ps : Pieces) :
    (cut [] false s = some ss ↔ Cuts s ss) ∧ (pieces ss es = some ps ↔ Filled ss es ps) :=
  ⟨⟨cut_sound (acc := []) (b := false) (fun _ h => nomatch h), cut_complete⟩, pieces_sound, pieces_complete⟩

/-- `a{imm:#x}` shows the variable `imm` after a text; doubled braces are not read. -/
example : Cuts (codesOf ['a', '{', 'i', 'm', 'm', ':', '#', 'x', '}'])
      [.text (codesOf ['a']), .hole (codesOf ['i', 'm', 'm', ':', '#', 'x'])] ∧
    Filled [.text (codesOf ['a']), .hole (codesOf ['i', 'm', 'm', ':', '#', 'x'])] []
      (.text "a" (.arg .altLowerHex (.var .imm) .nil)) ∧
    ¬ ∃ ss, Cuts (codesOf ['{', '{', '}', '}']) ss :=
  ⟨(C91_formats _ [] _ .nil).1.1 rfl, pieces_sound (by rfl), fun ⟨_, h⟩ => by cases cut_complete h⟩

/-- `1 << 2 & 3` has one reading, and it is not `1 << (2 & 3)`. -/
example : let us : List Tok := [.num 1 none, .op .shl, .num 2 none, .op .amp, .num 3 none]
    Phrase .whole (Ctx.empty false) us (.bin .and (.bin .shl (.lit 1) (.lit 2)) (.lit 3)) ∧
    ¬ Phrase .whole (Ctx.empty false) us (.bin .shl (.lit 1) (.bin .and (.lit 2) (.lit 3))) := by
  have h : Phrase .whole (Ctx.empty false) [.num 1 none, .op .shl, .num 2 none, .op .amp, .num 3 none]
      (.bin .and (.bin .shl (.lit 1) (.lit 2)) (.lit 3)) := by
    obtain ⟨us, he, h⟩ := (rules_sound 20).whole (c := Ctx.empty false) (ts := [.num 1 none, .op .shl, .num 2 none,
      .op .amp, .num 3 none]) (e := .bin .and (.bin .shl (.lit 1) (.lit 2)) (.lit 3)) (rest := [])
      (by kernel_rfl)
    rw [List.append_nil] at he
    exact he ▸ h
  refine ⟨h, fun h' => ?_⟩
  have := C91_unambiguous (k := .whole) (by simp) h h'
  cases this

end Raki
