import Verif.Source.Codes
import Verif.Source.Lexical
/-!
# The lexer cuts lines as the lexical rules say
-/

set_option linter.constructorNameAsVariable false

namespace Raki.Source

/-! ## Characters -/

theorem beq_false {a b : Nat} (h : a ≠ b) : Nat.beq a b = false := by
  cases e : Nat.beq a b with
  | false => rfl
  | true => exact absurd (Nat.eq_of_beq_eq_true e) h

theorem isDigit_iff {c : Nat} : isDigit c = true ↔ Digit c := by
  simp only [isDigit, Digit, Bool.and_eq_true, Nat.ble_eq]
  exact Iff.rfl

theorem isWord_iff {c : Nat} : isWord c = true ↔ WordChar c := by
  simp only [isWord, WordChar, Bool.or_eq_true, Bool.and_eq_true, Nat.ble_eq, isDigit_iff, Nat.beq_eq]
  exact Iff.rfl

theorem isWord_false {c : Nat} : isWord c = false ↔ ¬ WordChar c := by
  rw [← isWord_iff, Bool.not_eq_true]

theorem isDigit_false {c : Nat} : isDigit c = false ↔ ¬ Digit c := by
  rw [← isDigit_iff, Bool.not_eq_true]

theorem WordChar.bound {c : Nat} (h : WordChar c) : 0 < c ∧ c < 256 ∧ c ≠ 32 ∧ c ≠ 34 ∧ c ≠ 39 ∧ c ≠ 35 ∧ c ≠ 46 ∧
    c ≠ 47 := by
  have e : '0'.toNat = 48 ∧ '9'.toNat = 57 ∧ 'a'.toNat = 97 ∧ 'z'.toNat = 122 ∧ 'A'.toNat = 65 ∧ 'Z'.toNat = 90 ∧
    '_'.toNat = 95 := ⟨rfl, rfl, rfl, rfl, rfl, rfl, rfl⟩
  obtain ⟨e1, e2, e3, e4, e5, e6, e7⟩ := e
  simp only [WordChar, Digit, e1, e2, e3, e4, e5, e6, e7] at h
  omega

/-- No word character stands first. -/
def Stopped (us : List Nat) : Prop := ∀ c ∈ us.head?, ¬ WordChar c

theorem startsWord_false {us : List Nat} : startsWord us = false ↔ Stopped us := by
  cases us with
  | nil => simp [startsWord, Stopped]
  | cons c us => simp [startsWord, Stopped, isWord_false]

theorem spanWord_spec (us : List Nat) : us = (spanWord us).1 ++ (spanWord us).2 ∧ (∀ c ∈ (spanWord us).1, WordChar c) ∧
    Stopped (spanWord us).2 := by
  induction us with
  | nil => simp [spanWord, Stopped]
  | cons c us ih =>
    rw [spanWord]
    cases h : isWord c with
    | true =>
      refine ⟨by simp [← ih.1], ?_, ih.2.2⟩
      intro d hd
      obtain rfl | hd := List.mem_cons.1 hd
      · exact isWord_iff.1 h
      · exact ih.2.1 d hd
    | false => exact ⟨rfl, by simp, by simpa [Stopped] using isWord_false.1 h⟩

theorem spanWord_append {us rest : List Nat} (hu : ∀ c ∈ us, WordChar c) (hr : Stopped rest) :
    spanWord (us ++ rest) = (us, rest) := by
  induction us with
  | nil =>
    cases rest with
    | nil => rfl
    | cons c rest =>
      have : isWord c = false := isWord_false.2 (hr c rfl)
      simp only [List.nil_append, spanWord, this]
  | cons c us ih =>
    have : isWord c = true := isWord_iff.2 (hu c List.mem_cons_self)
    have ih := ih fun d hd => hu d (List.mem_cons_of_mem _ hd)
    simp only [List.cons_append, spanWord, this, ih]

/-! ## Spellings -/

theorem spell_acc (us : List Nat) (c a : Nat) : spell (us ++ [c]) a = spell us a * 256 + c := by
  induction us generalizing a with
  | nil => rfl
  | cons d us ih => exact ih _

/-- The number spelled out by characters below 256 other than NUL determines them. -/
theorem spell_inj {us vs : List Nat} (hu : ∀ c ∈ us, 0 < c ∧ c < 256) (hv : ∀ c ∈ vs, 0 < c ∧ c < 256)
    (h : spell us 0 = spell vs 0) : us = vs := by
  induction hn : us.length generalizing us vs with
  | zero =>
    obtain rfl := List.length_eq_zero_iff.1 hn
    obtain rfl | ⟨vs, c, rfl⟩ := List.eq_nil_or_concat vs
    · rfl
    · rw [List.concat_eq_append] at h hv
      rw [spell_acc] at h
      have := hv c (by simp)
      simp only [spell] at h
      omega
  | succ n ih =>
    obtain rfl | ⟨us, c, rfl⟩ := List.eq_nil_or_concat us
    · simp at hn
    rw [List.concat_eq_append] at h hu hn ⊢
    have hc := hu c (by simp)
    rw [spell_acc] at h
    obtain rfl | ⟨vs, d, rfl⟩ := List.eq_nil_or_concat vs
    · simp only [spell] at h
      omega
    rw [List.concat_eq_append] at h hv ⊢
    have hd := hv d (by simp)
    rw [spell_acc] at h
    have : us = vs := ih (fun x hx => hu x (by simp [hx])) (fun x hx => hv x (by simp [hx])) (by omega)
      (by simpa using hn)
    subst this
    have : c = d := by omega
    rw [this]

theorem Run.bound {us : List Nat} (h : ∀ c ∈ us, WordChar c) : ∀ c ∈ us, 0 < c ∧ c < 256 :=
  fun c hc => ⟨(h c hc).bound.1, (h c hc).bound.2.1⟩

/-! ## The table of words -/

/-- The words of a table that `f` picks, with their keys. -/
def Tree.picked {α : Type} (f : Word → Option α) : Tree → List (Nat × α)
  | .leaf => []
  | .node l k v r => l.picked f ++ (match f v with
    | some a => [(k, a)]
    | none => []) ++ r.picked f

theorem find_picked {α : Type} {f : Word → Option α} {t : Tree} {n : Nat} {w : Word} {a : α} (h : t.find n = some w)
    (hf : f w = some a) : (n, a) ∈ t.picked f := by
  induction t with
  | leaf => cases h
  | node l k v r ihl ihr =>
    rw [Tree.find] at h
    rw [Tree.picked]
    split at h
    · rename_i e
      obtain rfl := Nat.eq_of_beq_eq_true e
      cases h
      simp [hf]
    · split at h
      · simp [ihl h]
      · simp [ihr h]

/-- The keyword a word is. -/
def Word.kw? : Word → Option Kw
  | .kw k => some k
  | .id _ => none

/-- The type a suffix stands for. -/
def Word.suffix? : Word → Option Ty
  | .id .u8 => some .u8
  | .id .u16 => some .u16
  | .id .u32 => some .u32
  | .id .usize => some .usize
  | .id .i32 => some .i32
  | _ => none

theorem kws_spelled : ((words.picked Word.kw?).all fun p => Nat.beq p.1 (spell (chars p.2.text) 0)) = true := by
  kernel_rfl

theorem kw_chars (k : Kw) : ((chars k.text).all isWord) = true ∧ startsName (chars k.text) = true := by
  cases k <;> exact ⟨rfl, rfl⟩

theorem kw_named (k : Kw) : Named (chars k.text) := by
  obtain ⟨h1, h2⟩ := kw_chars k
  refine ⟨⟨?_, fun c hc => isWord_iff.1 (List.all_eq_true.1 h1 c hc)⟩, ?_⟩
  · intro h
    rw [h] at h2
    cases h2
  · intro c hc
    cases h : chars k.text with
    | nil => rw [h] at hc; cases hc
    | cons d us =>
      rw [h] at hc h2
      cases hc
      rw [startsName] at h2
      simp only [Bool.and_eq_true, Bool.not_eq_true'] at h2
      exact isDigit_false.1 h2.2

theorem find_kw {us : List Nat} (hu : ∀ c ∈ us, WordChar c) {k : Kw} (h : words.find (spell us 0) = some (.kw k)) :
    us = chars k.text := by
  have h := List.all_eq_true.1 kws_spelled _ (find_picked (f := Word.kw?) h rfl)
  exact spell_inj (Run.bound hu) (Run.bound (kw_named k).1.2) (Nat.eq_of_beq_eq_true h)

theorem kw_find (k : Kw) : words.find (spell (chars k.text) 0) = some (.kw k) := by
  cases k <;> kernel_rfl

theorem word_kw (k : Kw) : word (chars k.text) = .kw k := by
  rw [word, kw_find]

theorem word_name {us : List Nat} (h : Named us) (hk : ∀ k : Kw, chars k.text ≠ us) : word us = .name (spell us 0) := by
  rw [word]
  split
  · rename_i k e
    exact absurd (find_kw h.1.2 e).symm (hk k)
  · rfl

theorem word_means {us : List Nat} (h : Named us) : Means us (word us) := by
  by_cases hk : ∃ k : Kw, chars k.text = us
  · obtain ⟨k, rfl⟩ := hk
    rw [word_kw]
    exact .kw k
  · have hk : ∀ k : Kw, chars k.text ≠ us := fun k e => hk ⟨k, e⟩
    rw [word_name h hk]
    exact .name h hk

/-! ## Numbers -/

/-- How a suffix is written. -/
def suffixText : Ty → List Char
  | .u8 => ['u', '8']
  | .u16 => ['u', '1', '6']
  | .u32 => ['u', '3', '2']
  | .usize => ['u', 's', 'i', 'z', 'e']
  | .i32 => ['i', '3', '2']
  | _ => []

theorem suffixes_spelled : ((words.picked Word.suffix?).all fun p => (Nat.beq p.1 (spell (chars (suffixText p.2)) 0)).and
    ((chars (suffixText p.2)).all isWord)) = true := by
  kernel_rfl

theorem find_suffix {us : List Nat} (hu : ∀ c ∈ us, WordChar c) {w : Word} {t : Ty}
    (h : words.find (spell us 0) = some w) (hw : w.suffix? = some t) : us = chars (suffixText t) := by
  have h := List.all_eq_true.1 suffixes_spelled _ (find_picked (f := Word.suffix?) h hw)
  simp only [Bool.and_eq_true] at h
  exact spell_inj (Run.bound hu) (Run.bound fun c hc => isWord_iff.1 (List.all_eq_true.1 h.2 c hc))
    (Nat.eq_of_beq_eq_true h.1)

theorem Digits.chars {b : Nat} (hb : b ≤ 16) {us : List Nat} {n : Nat} (h : Digits b us n) : ∀ c ∈ us,
    WordChar c ∧ c ≠ 117 ∧ c ≠ 105 := by
  have e : ∀ d, d < 16 → isWord d.digitChar.toNat = true ∧ d.digitChar.toNat ≠ 117 ∧ d.digitChar.toNat ≠ 105 := by decide
  induction h with
  | nil => simp
  | @digit us n d _ hd ih =>
    intro c hc
    obtain hc | hc := List.mem_append.1 hc
    · exact ih c hc
    · obtain rfl : c = d.digitChar.toNat := by simpa [Source.chars] using hc
      have := e d (by omega)
      exact ⟨isWord_iff.1 this.1, this.2⟩
  | under _ ih =>
    intro c hc
    obtain hc | hc := List.mem_append.1 hc
    · exact ih c hc
    · obtain rfl : c = 95 := by simpa [Source.chars] using hc
      exact ⟨isWord_iff.1 rfl, by decide, by decide⟩

theorem digit_some {c d : Nat} (h : digit c = some d) : c = d.digitChar.toNat ∧ d < 16 := by
  have e : ∀ d, d < 10 → (48 + d = d.digitChar.toNat) := by decide
  have e' : ∀ d, d < 6 → (97 + d = (10 + d).digitChar.toNat) := by decide
  rw [digit] at h
  split at h
  · rename_i h1
    obtain rfl := Option.some.inj h
    simp only [isDigit, Bool.and_eq_true, Nat.ble_eq] at h1
    have := e (c - 48) (by omega)
    exact ⟨by omega, by omega⟩
  · rename_i h1 h2
    obtain rfl := Option.some.inj h
    simp only [Bool.and_eq_true, Nat.ble_eq] at h2
    have := e' (c - 97) (by omega)
    rw [show 10 + (c - 97) = c - 87 by omega] at this
    exact ⟨by omega, by omega⟩
  · cases h

theorem digit_digitChar : ∀ d, d < 16 → digit d.digitChar.toNat = some d ∧ Nat.beq d.digitChar.toNat 95 = false ∧
    (Nat.beq d.digitChar.toNat 117).or (Nat.beq d.digitChar.toNat 105) = false := by
  decide

theorem digits_sound {b : Nat} {cs us : List Nat} {a n : Nat} {t : Option Ty} (hc : ∀ c ∈ cs, WordChar c)
    (hu : Digits b us a) (h : digits b cs a = some (n, t)) :
    ∃ vs ss, cs = vs ++ ss ∧ Digits b (us ++ vs) n ∧ Suffix ss t := by
  induction cs generalizing us a with
  | nil =>
    rw [digits] at h
    cases h
    exact ⟨[], [], rfl, by simpa using hu, .none⟩
  | cons c cs ih =>
    have hc' : ∀ d ∈ cs, WordChar d := fun d hd => hc d (List.mem_cons_of_mem _ hd)
    rw [digits] at h
    split at h
    · rename_i e
      obtain rfl := Nat.eq_of_beq_eq_true e
      obtain ⟨vs, ss, rfl, hv, hs⟩ := ih hc' (.under hu) h
      exact ⟨95 :: vs, ss, rfl, by simpa [chars] using hv, hs⟩
    · refine ⟨[], c :: cs, rfl, ?_⟩
      rw [List.append_nil]
      split at h
      all_goals first
        | cases h
          rename_i e
          have := find_suffix hc e rfl
          rw [this]
          refine ⟨hu, ?_⟩
          constructor
        | cases h
    · split at h
      · rename_i d hd
        obtain ⟨rfl, _⟩ := digit_some hd
        split at h
        · rename_i hb
          obtain ⟨vs, ss, rfl, hv, hs⟩ := ih hc' (.digit hu (by simpa using hb)) h
          exact ⟨d.digitChar.toNat :: vs, ss, rfl, by simpa [chars] using hv, hs⟩
        · cases h
      · cases h

theorem digits_digits {b : Nat} (hb : b ≤ 16) {us : List Nat} {n : Nat} (h : Digits b us n) (rest : List Nat) :
    digits b (us ++ rest) 0 = digits b rest n := by
  induction h generalizing rest with
  | nil => rfl
  | @digit us n d _ hd ih =>
    obtain ⟨h1, h2, h3⟩ := digit_digitChar d (by omega)
    have h4 : Nat.blt d b = true := by rw [Nat.blt_eq]; exact hd
    rw [List.append_assoc, ih]
    simp only [chars, List.map_cons, List.map_nil, List.cons_append, List.nil_append]
    rw [digits]
    simp only [h1, h2, h3, h4]
  | under _ ih =>
    rw [List.append_assoc, ih]
    rfl

theorem digits_suffix (b n : Nat) {ss : List Nat} {t : Option Ty} (h : Suffix ss t) : digits b ss n = some (n, t) := by
  cases h
  case none => rfl
  all_goals
    simp only [chars, List.map_cons, List.map_nil, digits]
    rfl

theorem started_spec {b : Nat} (hb : b ≤ 16) {ds ss : List Nat} {n : Nat} {t : Option Ty} (hd : Digits b ds n)
    (hs : Suffix ss t) : started (ds ++ ss) = true ↔ ∃ c ∈ ds, c ≠ 95 := by
  have hc : ∀ c ∈ ds, c = 95 ∨ (digit c).isSome := by
    clear hs
    induction hd with
    | nil => simp
    | @digit us n d _ h ih =>
      intro c hc
      obtain hc | hc := List.mem_append.1 hc
      · exact ih c hc
      · obtain rfl : c = d.digitChar.toNat := by simpa [chars] using hc
        exact .inr (by rw [(digit_digitChar d (by omega)).1]; rfl)
    | under _ ih =>
      intro c hc
      obtain hc | hc := List.mem_append.1 hc
      · exact ih c hc
      · exact .inl (by simpa [chars] using hc)
  clear hd
  induction ds with
  | nil => cases hs <;> simp [started, chars] <;> decide
  | cons c ds ih =>
    rw [List.cons_append, started]
    cases e : Nat.beq c 95 with
    | true =>
      obtain rfl := Nat.eq_of_beq_eq_true e
      simpa using ih fun d hd => hc d (List.mem_cons_of_mem _ hd)
    | false =>
      have e := Nat.ne_of_beq_eq_false e
      have := (hc c List.mem_cons_self).resolve_left e
      simp [this, e]

theorem based_sound {b : Nat} (hb : b ≤ 16) {cs : List Nat} {t : Tok} (hc : ∀ c ∈ cs, WordChar c)
    (h : based b cs = some t) : ∃ ds ss n ty, cs = ds ++ ss ∧ t = .num n ty ∧ Digits b ds n ∧ (∃ c ∈ ds, c ≠ 95) ∧
      Suffix ss ty := by
  rw [based] at h
  split at h
  · rename_i n ty h1 h2
    obtain ⟨ds, ss, rfl, hd, hs⟩ := digits_sound hc .nil h2
    rw [List.nil_append] at hd
    exact ⟨ds, ss, n, ty, rfl, (Option.some.inj h).symm, hd, (started_spec hb hd hs).1 h1, hs⟩
  · cases h

theorem based_complete {b : Nat} (hb : b ≤ 16) {ds ss : List Nat} {n : Nat} {t : Option Ty} (hd : Digits b ds n)
    (hn : ∃ c ∈ ds, c ≠ 95) (hs : Suffix ss t) : based b (ds ++ ss) = some (.num n t) := by
  rw [based, (started_spec hb hd hs).2 hn, digits_digits hb hd, digits_suffix b n hs]

theorem number_sound {cs : List Nat} {t : Tok} (hc : ∀ c ∈ cs, WordChar c) (hd : ∀ c ∈ cs.head?, Digit c)
    (h : number cs = some t) : Means cs t := by
  rw [number.eq_def] at h
  split at h
  · obtain ⟨ds, ss, n, ty, rfl, rfl, h1, h2, h3⟩ := based_sound (by omega)
      (fun c h => hc c (List.mem_cons_of_mem _ (List.mem_cons_of_mem _ h))) h
    exact .num .two h1 h2 h3 fun c hc => hd c hc
  · obtain ⟨ds, ss, n, ty, rfl, rfl, h1, h2, h3⟩ := based_sound (by omega)
      (fun c h => hc c (List.mem_cons_of_mem _ (List.mem_cons_of_mem _ h))) h
    exact .num .sixteen h1 h2 h3 fun c hc => hd c hc
  · obtain ⟨ds, ss, n, ty, rfl, rfl, h1, h2, h3⟩ := based_sound (by omega) hc h
    refine .num .ten h1 h2 h3 fun c hc => hd c ?_
    rw [List.nil_append] at hc
    rw [List.head?_append]
    cases ds with
    | nil => cases hc
    | cons d ds => exact hc

theorem number_complete {ps ds ss : List Nat} {b n : Nat} {t : Option Ty} (hb : Base ps b) (hd : Digits b ds n)
    (hn : ∃ c ∈ ds, c ≠ 95) (hs : Suffix ss t) : number (ps ++ ds ++ ss) = some (.num n t) := by
  cases hb with
  | two => exact based_complete (by omega) hd hn hs
  | sixteen => exact based_complete (by omega) hd hn hs
  | ten =>
    rw [List.nil_append, ← based_complete (by omega) hd hn hs]
    have hc : ∀ c ∈ ds ++ ss, c ≠ 98 ∧ c ≠ 120 := by
      intro c h
      obtain hc | hc := List.mem_append.1 h
      · clear h hn hs
        have e : ∀ d, d < 10 → d.digitChar.toNat ≠ 98 ∧ d.digitChar.toNat ≠ 120 := by decide
        induction hd with
        | nil => cases hc
        | @digit us n d _ hd ih =>
          obtain hc | hc := List.mem_append.1 hc
          · exact ih hc
          · obtain rfl : c = d.digitChar.toNat := by simpa [chars] using hc
            exact e d hd
        | under _ ih =>
          obtain hc | hc := List.mem_append.1 hc
          · exact ih hc
          · obtain rfl : c = 95 := by simpa [chars] using hc
            decide
      · clear h
        revert c
        cases hs <;> decide
    rw [number.eq_def]
    split
    · rename_i e
      exact absurd rfl (hc 98 (by rw [e]; simp)).1
    · rename_i e
      exact absurd rfl (hc 120 (by rw [e]; simp)).2
    · rfl

/-! ## The end of a token -/

theorem quoted_false {us : List Nat} : quoted us = false ↔ ∀ c ∈ us.head?, c ≠ 34 ∧ c ≠ 39 ∧ c ≠ 35 := by
  rw [quoted.eq_def]
  split
  · simp
  · simp
  · simp
  · rename_i h1 h2 h3
    refine ⟨fun _ c hc => ?_, fun _ => rfl⟩
    cases us with
    | nil => cases hc
    | cons d us =>
      cases hc
      exact ⟨fun e => h1 us (e ▸ rfl), fun e => h2 us (e ▸ rfl), fun e => h3 us (e ▸ rfl)⟩

theorem dotted_false {us : List Nat} : dotted us = false ↔
    ∀ rest, us = 46 :: rest → ¬ ∀ c ∈ rest.head?, c ≠ 46 ∧ (WordChar c → Digit c) := by
  rw [dotted.eq_def]
  split
  · simp
  · rename_i c us
    constructor
    · intro h rest e
      cases e
      intro hc
      have hc := hc c rfl
      split at h
      · rename_i e
        exact hc.1 (Nat.eq_of_beq_eq_true e)
      · rename_i e1 e2 e3
        exact isDigit_false.1 e3 (hc.2 (isWord_iff.1 e2))
      · cases h
    · intro h
      have h := h _ rfl
      split
      · rfl
      · rfl
      · rename_i h1 h2
        refine absurd ?_ h
        intro d hd
        cases hd
        refine ⟨fun e => h1 (by rw [e]; rfl), fun hw => isDigit_iff.1 ?_⟩
        cases hd : isDigit c with
        | true => rfl
        | false =>
          refine absurd (isWord_iff.2 hw) fun hw => ?_
          cases he : Nat.beq c 46 with
          | true => exact h1 he
          | false => exact h2 he hw hd
  · rename_i h1 h2
    refine ⟨fun _ rest e => ?_, fun _ => rfl⟩
    subst e
    cases rest with
    | nil => exact absurd rfl h1
    | cons c us => exact absurd rfl (h2 c us)

theorem startsName_iff {us : List Nat} : startsName us = true ↔ us ≠ [] ∧ ∀ c ∈ us.head?, WordChar c ∧ ¬ Digit c := by
  cases us with
  | nil => simp [startsName]
  | cons c us => simp [startsName, isWord_iff, isDigit_false]

theorem op_head (o : Op) : ∀ c ∈ (chars o.text).head?, ¬ WordChar c ∧ c ≠ 34 ∧ c ≠ 39 ∧ c ≠ 32 := by
  intro c hc
  rw [← isWord_false]
  revert c
  cases o <;> decide

theorem other_head {o : List Char} (h : o ∈ otherOps) : ∀ c ∈ (chars o).head?, ¬ WordChar c ∧ c ≠ 34 ∧ c ≠ 39 := by
  intro c hc
  rw [← isWord_false]
  have := (by decide : ∀ o ∈ otherOps, ∀ c ∈ (chars o).head?, isWord c = false ∧ c ≠ 34 ∧ c ≠ 39) o h
  exact this c hc

theorem mem_of_longer {xs ys vs : List Nat} {v q : Nat} (h : xs ++ v :: vs = ys ++ [q]) :
    (vs = [] ∧ xs = ys ∧ v = q) ∨ v ∈ ys := by
  obtain rfl | ⟨vs, w, rfl⟩ := List.eq_nil_or_concat vs
  · obtain ⟨h1, h2⟩ := List.append_inj' h rfl
    exact .inl ⟨rfl, h1, by simpa using h2⟩
  · rw [List.concat_eq_append, ← List.cons_append, ← List.append_assoc] at h
    obtain ⟨h1, _⟩ := List.append_inj' h rfl
    exact .inr (by rw [← h1]; simp)

/-- Where a word or number ends. -/
theorem run_longest {us rest : List Nat} (hu : Run us) : Longest us rest ↔ (Stopped rest ∧ quoted rest = false ∧
    ((∀ c ∈ us.head?, Digit c) → dotted rest = false)) := by
  constructor
  · intro h
    refine ⟨fun c hc hw => ?_, ?_, ?_⟩
    · cases rest with
      | nil => cases hc
      | cons d rest =>
        cases hc
        refine h [c] rest rfl (by simp) (.run ⟨by simp, fun d hd => ?_⟩)
        obtain hd | hd := List.mem_append.1 hd
        · exact hu.2 d hd
        · obtain rfl := List.mem_singleton.1 hd
          exact hw
    · rw [quoted_false]
      intro c hc
      cases rest with
      | nil => cases hc
      | cons d rest =>
        cases hc
        have h := h [c] rest rfl (by simp)
        have h : c ∉ chars ['"', '\'', '#'] := fun e => h (.quoted hu e)
        simpa [chars] using h
    · intro hd
      rw [dotted_false]
      rintro rest rfl hc
      exact h [46] rest rfl (by simp) (.float hu hd hc)
  · rintro ⟨h1, h2, h3⟩ vs ws rfl hv h
    cases vs with
    | nil => exact hv rfl
    | cons v vs =>
      have h1 : ¬ WordChar v := h1 v rfl
      have h2 := quoted_false.1 h2 v rfl
      obtain ⟨c, us', rfl⟩ : ∃ c us', us = c :: us' := by
        cases us with
        | nil => exact absurd rfl hu.1
        | cons c us => exact ⟨c, us, rfl⟩
      have hw : WordChar c := hu.2 c List.mem_cons_self
      have hb := hw.bound
      generalize hx : c :: us' ++ v :: vs = xs at h
      cases h with
      | run h => exact h1 (h.2 v (by rw [← hx]; simp))
      | @quoted us0 _ q h hq =>
        obtain ⟨-, -, rfl⟩ | hv := mem_of_longer hx
        · simp only [chars, List.map_cons, List.map_nil, List.mem_cons, List.not_mem_nil, or_false] at hq
          obtain e | e | e := hq
          · exact h2.1 e
          · exact h2.2.1 e
          · exact h2.2.2 e
        · exact h1 (h.2 v hv)
      | @float us0 _ h hd hc =>
        obtain ⟨rfl, rfl, rfl⟩ | hv := mem_of_longer hx
        · exact dotted_false.1 (h3 hd) ws rfl hc
        · exact h1 (h.2 v hv)
      | str =>
        simp only [chars, List.map_cons, List.map_nil, List.cons_append, List.nil_append] at hx
        exact hb.2.2.2.1 (List.cons.inj hx).1
      | life =>
        simp only [chars, List.map_cons, List.map_nil, List.cons_append, List.nil_append] at hx
        exact hb.2.2.2.2.1 (List.cons.inj hx).1
      | char =>
        simp only [chars, List.map_cons, List.map_nil, List.cons_append, List.nil_append] at hx
        exact hb.2.2.2.2.1 (List.cons.inj hx).1
      | op o => exact (op_head o c (by rw [← hx]; rfl)).1 hw
      | other ho => exact (other_head ho c (by rw [← hx]; rfl)).1 hw

/-- Where a string ends. -/
theorem str_longest {s rest : List Nat} (hs : Plain s) :
    Longest (chars ['"'] ++ s ++ chars ['"']) rest ↔ Stopped rest := by
  constructor
  · intro h c hc hw
    cases rest with
    | nil => cases hc
    | cons d rest =>
      cases hc
      exact h [c] rest rfl (by simp) (.str hs fun d hd => by obtain rfl := List.mem_singleton.1 hd; exact hw)
  · rintro h1 vs ws rfl hv h
    cases vs with
    | nil => exact hv rfl
    | cons v vs =>
      have h1 : ¬ WordChar v := h1 v rfl
      have hq : ¬ WordChar 34 := isWord_false.1 rfl
      generalize hx : chars ['"'] ++ s ++ chars ['"'] ++ v :: vs = xs at h
      have e0 : chars ['"'] ++ s ++ chars ['"'] ++ v :: vs = 34 :: (s ++ 34 :: v :: vs) := by simp [chars]
      rw [e0] at hx
      clear e0
      cases h with
      | run h => exact hq (h.2 34 (by rw [← hx]; simp))
      | @quoted us0 _ q h hq' =>
        cases us0 with
        | nil => exact h.1 rfl
        | cons c us =>
          obtain ⟨rfl, _⟩ := List.cons.inj hx
          exact hq (h.2 34 (by simp))
      | @float us0 _ h hd hc =>
        cases us0 with
        | nil => exact h.1 rfl
        | cons c us =>
          obtain ⟨rfl, _⟩ := List.cons.inj hx
          exact hq (h.2 34 (by simp))
      | @str s' vs' _ hs' hv' =>
        have e : chars ['"'] ++ s' ++ chars ['"'] ++ vs' = 34 :: (s' ++ 34 :: vs') := by simp [chars]
        rw [e] at hx
        replace hx := (List.cons.inj hx).2
        have : s = s' ∧ v :: vs = vs' := by
          clear hv' hv e
          induction s generalizing s' with
          | nil =>
            cases s' with
            | nil => exact ⟨rfl, (List.cons.inj hx).2⟩
            | cons c s' => exact absurd (List.cons.inj hx).1.symm (hs' c List.mem_cons_self).1
          | cons c s ih =>
            cases s' with
            | nil => exact absurd (List.cons.inj hx).1 (hs c List.mem_cons_self).1
            | cons d s' =>
              obtain ⟨rfl, hy⟩ := List.cons.inj hx
              have := ih (fun x h => hs x (List.mem_cons_of_mem _ h)) (fun x h => hs' x (List.mem_cons_of_mem _ h)) hy
              exact ⟨by rw [this.1], this.2⟩
        exact h1 (hv' v (by rw [← this.2]; simp))
      | life =>
        simp only [chars, List.map_cons, List.map_nil, List.cons_append, List.nil_append] at hx
        exact absurd (List.cons.inj hx).1 (by decide)
      | char =>
        simp only [chars, List.map_cons, List.map_nil, List.cons_append, List.nil_append] at hx
        exact absurd (List.cons.inj hx).1 (by decide)
      | op o => exact (op_head o 34 (by rw [← hx]; rfl)).2.1 rfl
      | other ho => exact (other_head ho 34 (by rw [← hx]; rfl)).2.1 rfl

/-- Where a lifetime ends. -/
theorem life_longest {us rest : List Nat} (hu : Run us) :
    Longest (chars ['\''] ++ us) rest ↔ (Stopped rest ∧ quoted rest = false) := by
  constructor
  · intro h
    refine ⟨fun c hc hw => ?_, ?_⟩
    · cases rest with
      | nil => cases hc
      | cons d rest =>
        cases hc
        refine h [c] rest rfl (by simp) ?_
        rw [List.append_assoc]
        refine .life ⟨by simp, fun d hd => ?_⟩
        obtain hd | hd := List.mem_append.1 hd
        · exact hu.2 d hd
        · obtain rfl := List.mem_singleton.1 hd
          exact hw
    · rw [quoted_false]
      intro c hc
      cases rest with
      | nil => cases hc
      | cons d rest =>
        cases hc
        have h := h [c] rest rfl (by simp)
        have h : c ∉ chars ['"', '\'', '#'] := fun e => h (.char hu e)
        simpa [chars] using h
  · rintro ⟨h1, h2⟩ vs ws rfl hv h
    cases vs with
    | nil => exact hv rfl
    | cons v vs =>
      have h1 : ¬ WordChar v := h1 v rfl
      have h2 := quoted_false.1 h2 v rfl
      have hq : ¬ WordChar 39 := isWord_false.1 rfl
      generalize hx : chars ['\''] ++ us ++ v :: vs = xs at h
      have e : chars ['\''] ++ us ++ v :: vs = 39 :: (us ++ v :: vs) := by simp [chars]
      rw [e] at hx
      cases h with
      | run h => exact hq (h.2 39 (by rw [← hx]; simp))
      | @quoted us0 _ q h hq' =>
        cases us0 with
        | nil => exact h.1 rfl
        | cons c us =>
          obtain ⟨rfl, _⟩ := List.cons.inj hx
          exact hq (h.2 39 (by simp))
      | @float us0 _ h hd hc =>
        cases us0 with
        | nil => exact h.1 rfl
        | cons c us =>
          obtain ⟨rfl, _⟩ := List.cons.inj hx
          exact hq (h.2 39 (by simp))
      | str =>
        simp only [chars, List.map_cons, List.map_nil, List.cons_append, List.nil_append] at hx
        exact absurd (List.cons.inj hx).1 (by decide)
      | @life us0 _ h =>
        have hx : us ++ v :: vs = us0 := (List.cons.inj hx).2
        exact h1 (h.2 v (by rw [← hx]; simp))
      | @char us0 _ q h hq' =>
        have hx : us ++ v :: vs = us0 ++ [q] := by
          simp only [chars, List.map_cons, List.map_nil, List.cons_append, List.nil_append] at hx
          exact (List.cons.inj hx).2
        obtain ⟨-, -, rfl⟩ | hv := mem_of_longer hx
        · simp only [chars, List.map_cons, List.map_nil, List.mem_cons, List.not_mem_nil, or_false] at hq'
          obtain e | e | e := hq'
          · exact h2.1 e
          · exact h2.2.1 e
          · exact h2.2.2 e
        · exact h1 (h.2 v hv)
      | op o => exact (op_head o 39 (by rw [← hx]; rfl)).2.2.1 rfl
      | other ho => exact (other_head ho 39 (by rw [← hx]; rfl)).2.2 rfl

/-! ## Punctuation -/

theorem op2_text {c d : Nat} {o : Op} (h : op2 c d = some o) : chars o.text = [c, d] := by
  rw [op2.eq_def] at h
  split at h <;> cases h <;> rfl

theorem other2_text {c d : Nat} (h : other2 c d = true) : ∃ o ∈ otherOps, chars o = [c, d] := by
  rw [other2.eq_def] at h
  split at h <;> cases h
  · exact ⟨['&', '&'], by decide, rfl⟩
  · exact ⟨['!', '='], by decide, rfl⟩
  · exact ⟨['<', '='], by decide, rfl⟩
  · exact ⟨['<', '-'], by decide, rfl⟩
  · exact ⟨['+', '='], by decide, rfl⟩
  · exact ⟨['-', '='], by decide, rfl⟩
  · exact ⟨['*', '='], by decide, rfl⟩
  · exact ⟨['&', '='], by decide, rfl⟩
  · exact ⟨['.', '.'], by decide, rfl⟩

theorem op1_text {c : Nat} {o : Op} (h : op1 c = some o) : chars o.text = [c] := by
  rw [op1.eq_def] at h
  split at h <;> cases h <;> rfl

/-- Punctuation is punctuation of one, two or three characters. -/
theorem text_cases (o : Op) : (∃ c, chars o.text = [c] ∧ op1 c = some o) ∨
    (∃ c d, chars o.text = [c, d] ∧ op2 c d = some o) ∨ o = .dotDotEq := by
  cases o
  all_goals first
    | exact .inl ⟨_, rfl, rfl⟩
    | exact .inr (.inl ⟨_, _, rfl, rfl⟩)
    | exact .inr (.inr rfl)

/-- Other punctuation that begins like the crate's. -/
theorem other_cases {o : List Char} (h : o ∈ otherOps) : (∃ c, chars o = [c] ∧ op1 c = none) ∨
    (∃ c d, chars o = [c, d] ∧ (op1 c = none ∨ other2 c d = true)) ∨
    (∃ c d, chars o = [c, d, 61] ∧ ∃ p, op2 c d = some p ∧ other3 p [61] = true) ∨ chars o = [46, 46, 46] := by
  simp only [otherOps, List.mem_cons, List.not_mem_nil, or_false] at h
  rcases h with rfl | rfl | rfl | rfl | rfl | rfl | rfl | rfl | rfl | rfl | rfl | rfl | rfl | rfl | rfl | rfl | rfl |
    rfl | rfl | rfl | rfl
  all_goals first
    | exact .inl ⟨_, rfl, rfl⟩
    | exact .inr (.inl ⟨_, _, rfl, .inl rfl⟩)
    | exact .inr (.inl ⟨_, _, rfl, .inr rfl⟩)
    | exact .inr (.inr (.inl ⟨_, _, rfl, _, rfl, rfl⟩))
    | exact .inr (.inr (.inr rfl))

/-- A token that begins with punctuation is punctuation. -/
theorem lexeme_op {us ws : List Nat} {c : Nat} (hc : ¬ WordChar c ∧ c ≠ 34 ∧ c ≠ 39) (h : Lexeme (c :: us) ws) :
    (∃ o : Op, chars o.text = c :: us) ∨ ∃ o ∈ otherOps, chars o = c :: us := by
  generalize hx : c :: us = xs at h
  cases h with
  | run h => exact absurd (h.2 c (by rw [← hx]; simp)) hc.1
  | @quoted us0 _ q h hq' =>
    cases us0 with
    | nil => exact absurd rfl h.1
    | cons d us =>
      obtain ⟨rfl, _⟩ := List.cons.inj hx
      exact absurd (h.2 c (by simp)) hc.1
  | @float us0 _ h hd _ =>
    cases us0 with
    | nil => exact absurd rfl h.1
    | cons d us =>
      obtain ⟨rfl, _⟩ := List.cons.inj hx
      exact absurd (h.2 c (by simp)) hc.1
  | str =>
    simp only [chars, List.map_cons, List.map_nil, List.cons_append, List.nil_append] at hx
    exact absurd (List.cons.inj hx).1 hc.2.1
  | life =>
    simp only [chars, List.map_cons, List.map_nil, List.cons_append, List.nil_append] at hx
    exact absurd (List.cons.inj hx).1 hc.2.2
  | char =>
    simp only [chars, List.map_cons, List.map_nil, List.cons_append, List.nil_append] at hx
    exact absurd (List.cons.inj hx).1 hc.2.2
  | op o => exact .inl ⟨o, rfl⟩
  | other ho => exact .inr ⟨_, ho, rfl⟩

theorem op_first {o : Op} {c : Nat} {us : List Nat} (h : chars o.text = c :: us) :
    ¬ WordChar c ∧ c ≠ 34 ∧ c ≠ 39 := by
  have := op_head o c (by rw [h]; rfl)
  exact ⟨this.1, this.2.1, this.2.2.1⟩

theorem one_longest {c : Nat} {o : Op} {rest : List Nat} (ho : op1 c = some o)
    (h2 : ∀ d us, rest = d :: us → op2 c d = none ∧ other2 c d = false)
    (h3 : ∀ us, c = 46 → rest ≠ 46 :: 61 :: us) : Longest [c] rest := by
  rintro vs ws rfl hv h
  cases vs with
  | nil => exact hv rfl
  | cons d vs =>
    obtain ⟨g2, h2'⟩ := h2 d _ rfl
    clear h2
    obtain ⟨p, e⟩ | ⟨p, hp, e⟩ := lexeme_op (op_first (op1_text ho)) h
    · obtain ⟨x, hx, _⟩ | ⟨x, y, hx, hy⟩ | rfl := text_cases p
      · cases hx.symm.trans e
      · cases hx.symm.trans e
        rw [hy] at g2
        cases g2
      · cases e
        exact h3 _ rfl rfl
    · obtain ⟨x, hx, _⟩ | ⟨x, y, hx, hy | hy⟩ | ⟨x, y, hx, q, hq, _⟩ | hx := other_cases hp
      · cases hx.symm.trans e
      · cases hx.symm.trans e
        rw [hy] at ho
        cases ho
      · cases hx.symm.trans e
        rw [hy] at h2'
        cases h2'
      · cases hx.symm.trans e
        rw [hq] at g2
        cases g2
      · cases hx.symm.trans e
        cases h2'

theorem two_longest {c d : Nat} {o : Op} {rest : List Nat} (ho : op2 c d = some o) (h3 : other3 o rest = false) :
    Longest [c, d] rest := by
  rintro vs ws rfl hv h
  cases vs with
  | nil => exact hv rfl
  | cons v vs =>
    obtain ⟨p, e⟩ | ⟨p, hp, e⟩ := lexeme_op (op_first (op2_text ho)) h
    · obtain ⟨x, hx, _⟩ | ⟨x, y, hx, hy⟩ | rfl := text_cases p
      · cases hx.symm.trans e
      · cases hx.symm.trans e
      · cases e
        cases ho
    · obtain ⟨x, hx, _⟩ | ⟨x, y, hx, hy⟩ | ⟨x, y, hx, q, hq, hy⟩ | hx := other_cases hp
      · cases hx.symm.trans e
      · cases hx.symm.trans e
      · cases hx.symm.trans e
        rw [hq] at ho
        cases ho
        rw [other3.eq_def] at hy h3
        split at hy
        · cases h3
        · cases h3
        · cases hy
      · cases hx.symm.trans e
        cases ho

theorem three_longest (rest : List Nat) : Longest [46, 46, 61] rest := by
  rintro vs ws rfl hv h
  cases vs with
  | nil => exact hv rfl
  | cons v vs =>
    obtain ⟨p, e⟩ | ⟨p, hp, e⟩ := lexeme_op (op_first (o := .dotDotEq) rfl) h
    · obtain ⟨x, hx, _⟩ | ⟨x, y, hx, hy⟩ | rfl := text_cases p
      · cases hx.symm.trans e
      · cases hx.symm.trans e
      · cases e
    · obtain ⟨x, hx, _⟩ | ⟨x, y, hx, hy⟩ | ⟨x, y, hx, q, hq, hy⟩ | hx := other_cases hp
      all_goals cases hx.symm.trans e

theorem punct_sound {us rest : List Nat} {o : Op} (h : punct us = some (o, rest)) :
    us = chars o.text ++ rest ∧ Longest (chars o.text) rest := by
  rw [punct.eq_def] at h
  split at h
  · cases h
    exact ⟨rfl, three_longest _⟩
  · rename_i c d cs hn
    split at h
    · rename_i o' ho
      split at h
      · cases h
      · rename_i h3
        cases h
        rw [op2_text ho]
        exact ⟨rfl, two_longest ho h3⟩
    · rename_i h2
      split at h
      · cases h
      · rename_i h2'
        split at h
        · rename_i o' ho
          cases h
          rw [op1_text ho]
          refine ⟨rfl, one_longest ho (fun x ys e => ?_) fun xs e1 e2 => ?_⟩
          · cases e
            exact ⟨h2, h2'⟩
          · cases e2
            cases e1
            exact hn _ rfl rfl rfl
        · cases h
  · rename_i c
    split at h
    · rename_i ho
      cases h
      rw [op1_text ho]
      exact ⟨rfl, one_longest ho (fun _ _ e => by cases e) fun _ _ e => by cases e⟩
    · cases h
  · cases h

theorem punct_complete {o : Op} {rest : List Nat} (h : Longest (chars o.text) rest) :
    punct (chars o.text ++ rest) = some (o, rest) := by
  obtain ⟨c, e, ho⟩ | ⟨c, d, e, ho⟩ | rfl := text_cases o
  · rw [e] at h ⊢
    cases rest with
    | nil => simp only [List.append_nil, punct, ho]
    | cons d rest =>
      have h2 : op2 c d = none := by
        cases hp : op2 c d with
        | none => rfl
        | some p =>
          refine absurd ?_ (h [d] rest rfl (by simp))
          have := Lexeme.op (rest := rest) p
          rw [op2_text hp] at this
          exact this
      have h2' : other2 c d = false := by
        cases hp : other2 c d with
        | false => rfl
        | true =>
          obtain ⟨p, hp, e⟩ := other2_text hp
          refine absurd ?_ (h [d] rest rfl (by simp))
          have := Lexeme.other (rest := rest) hp
          rw [e] at this
          exact this
      rw [punct.eq_def]
      split
      · rename_i cs e
        cases e
        cases h2'
      · rename_i e
        cases e
        simp only [h2, h2', ho]
      · rename_i e
        cases e
      · rename_i e
        cases e
  · rw [e] at h ⊢
    have h3 : other3 o rest = false := by
      rw [other3.eq_def]
      split
      · rename_i us
        cases e
        exact absurd (Lexeme.other (o := ['<', '<', '=']) (by decide)) (h [61] us rfl (by simp))
      · rename_i us
        cases e
        exact absurd (Lexeme.other (o := ['>', '>', '=']) (by decide)) (h [61] us rfl (by simp))
      · rfl
    show punct (c :: d :: rest) = _
    rw [punct.eq_def]
    split
    · rename_i cs e
      cases e
      cases ho
    · rename_i e
      cases e
      simp only [ho, h3]
    · rename_i e
      cases e
    · rename_i e
      cases e
  · rfl

/-! ## Lines and files -/

theorem spanStr_sound {cs s rest : List Nat} (h : spanStr cs = some (s, rest)) : cs = s ++ 34 :: rest ∧ Plain s := by
  induction cs generalizing s with
  | nil => cases h
  | cons c cs ih =>
    rw [spanStr] at h
    split at h
    · rename_i e
      obtain rfl := Nat.eq_of_beq_eq_true e
      cases h
      exact ⟨rfl, fun _ h => by cases h⟩
    · cases h
    · rename_i e1 e2
      split at h
      · rename_i s' r hs
        cases h
        obtain ⟨rfl, hp⟩ := ih hs
        refine ⟨rfl, fun d hd => ?_⟩
        obtain rfl | hd := List.mem_cons.1 hd
        · exact ⟨Nat.ne_of_beq_eq_false e1, Nat.ne_of_beq_eq_false e2⟩
        · exact hp d hd
      · cases h

theorem spanStr_complete {s : List Nat} (hs : Plain s) (rest : List Nat) :
    spanStr (s ++ 34 :: rest) = some (s, rest) := by
  induction s with
  | nil => rfl
  | cons c s ih =>
    have h1 : Nat.beq c 34 = false := beq_false (hs c List.mem_cons_self).1
    have h2 : Nat.beq c 92 = false := beq_false (hs c List.mem_cons_self).2
    have ih := ih fun d hd => hs d (List.mem_cons_of_mem _ hd)
    simp only [List.cons_append, spanStr, h1, h2, ih]

theorem consTok_some {t : Tok} {x : Option (List Tok)} {ts : List Tok} (h : consTok t x = some ts) :
    ∃ us, x = some us ∧ ts = t :: us := by
  cases x with
  | none => cases h
  | some us => exact ⟨us, rfl, (Option.some.inj h).symm⟩

/-- The lexer finds the tokens of a line. -/
theorem lexLine_sound {n : Nat} {l : List Nat} {ts : List Tok} (h : lexLine n l = some ts) : Line l ts := by
  induction n generalizing l ts with
  | zero =>
    cases l with
    | nil =>
      cases h
      exact .nil
    | cons => cases h
  | succ n ih =>
    cases l with
    | nil =>
      cases h
      exact .nil
    | cons c cs =>
      rw [lexLine, lexStep.eq_def] at h
      split at h
      · rename_i e
        obtain rfl := Nat.eq_of_beq_eq_true e
        exact .space (ih h)
      split at h
      · rename_i hw
        obtain ⟨h1, h2, h3⟩ := spanWord_spec cs
        generalize (spanWord cs).1 = vs at h h1 h2 h3
        generalize (spanWord cs).2 = rest at h h1 h2 h3
        subst h1
        rw [← List.cons_append]
        have hr : Run (c :: vs) := ⟨by simp, fun d hd => by
          obtain rfl | hd := List.mem_cons.1 hd
          · exact isWord_iff.1 hw
          · exact h2 d hd⟩
        split at h
        · cases h
        · cases h
        · rename_i hq hd hf
          split at h
          · rename_i t ht
            obtain ⟨us, hx, rfl⟩ := consTok_some h
            exact .token (number_sound hr.2 (fun d e => by cases e; exact isDigit_iff.1 hd) ht)
              ((run_longest hr).2 ⟨h3, hq, fun _ => hf⟩) (ih hx)
          · cases h
        · rename_i hq hd
          obtain ⟨us, hx, rfl⟩ := consTok_some h
          refine .token (word_means ⟨hr, fun d e => by cases e; exact isDigit_false.1 hd⟩)
            ((run_longest hr).2 ⟨h3, hq, fun hc => ?_⟩) (ih hx)
          exact absurd (hc c rfl) (isDigit_false.1 hd)
      · rename_i hw
        split at h
        · cases h
          exact .comment
        · split at h
          · rename_i s r hs
            obtain ⟨rfl, hp⟩ := spanStr_sound hs
            split at h
            · cases h
            · rename_i he
              obtain ⟨us, hx, rfl⟩ := consTok_some h
              have := Line.token (.str hp) ((str_longest hp).2 (startsWord_false.1 he)) (ih hx)
              simpa [chars] using this
          · cases h
        · obtain ⟨h1, h2, h3⟩ := spanWord_spec cs
          split at h
          · rename_i hn hq
            obtain ⟨us, hx, rfl⟩ := consTok_some h
            have hn := startsName_iff.1 hn
            have hne : (spanWord cs).1 ≠ [] := by
              intro e
              rw [e, List.nil_append] at h1
              cases cs with
              | nil => exact hn.1 rfl
              | cons d cs =>
                refine h3 d ?_ (hn.2 d rfl).1
                rw [← h1]
                rfl
            have hr : Run (spanWord cs).1 := ⟨hne, h2⟩
            have hd : Named (spanWord cs).1 := by
              refine ⟨hr, fun d e => (hn.2 d ?_).2⟩
              rw [h1, List.head?_append, e]
              rfl
            have := Line.token (.life hd) ((life_longest hr).2 ⟨h3, hq⟩) (ih hx)
            rw [List.append_assoc, ← h1] at this
            exact this
          · cases h
        · split at h
          · rename_i o r hp
            obtain ⟨us, hx, rfl⟩ := consTok_some h
            obtain ⟨e, hl⟩ := punct_sound hp
            rw [e]
            exact .token (.op o) hl (ih hx)
          · cases h

theorem means_ne {us : List Nat} {t : Tok} (h : Means us t) : us ≠ [] := by
  cases h with
  | kw k => exact (kw_named k).1.1
  | name h => exact h.1.1
  | num _ _ hn =>
    obtain ⟨c, hc, _⟩ := hn
    intro e
    simp only [List.append_eq_nil_iff] at e
    rw [e.1.2] at hc
    cases hc
  | str => simp [chars]
  | life => simp [chars]
  | op o => cases o <;> simp [chars, Op.text]

theorem suffix_word {ss : List Nat} {t : Option Ty} (h : Suffix ss t) : ∀ c ∈ ss, WordChar c := by
  have : (ss.all isWord) = true := by cases h <;> rfl
  exact fun c hc => isWord_iff.1 (List.all_eq_true.1 this c hc)

theorem lexLine_word {n c : Nat} {us rest : List Nat} (hr : Run (c :: us)) (hl : Longest (c :: us) rest) :
    lexLine (n + 1) (c :: us ++ rest) = match isDigit c with
      | true => match number (c :: us) with
        | some t => consTok t (lexLine n rest)
        | none => none
      | false => consTok (word (c :: us)) (lexLine n rest) := by
  obtain ⟨h1, h2, h3⟩ := (run_longest hr).1 hl
  have hs := spanWord_append (fun d hd => hr.2 d (List.mem_cons_of_mem _ hd)) h1
  have hw := hr.2 c List.mem_cons_self
  have hc : Nat.beq c 32 = false := beq_false hw.bound.2.2.1
  have hw := isWord_iff.2 hw
  rw [List.cons_append, lexLine, lexStep.eq_def]
  simp only [hc, hw, hs, h2]
  cases hd : isDigit c with
  | true =>
    have h3 := h3 fun d e => by cases e; exact isDigit_iff.1 hd
    simp only [h3]
    rfl
  | false => rfl

/-- The lexer finds every way to cut a line into tokens. -/
theorem lexLine_complete {l : List Nat} {ts : List Tok} (h : Line l ts) : ∀ n, l.length ≤ n → lexLine n l = some ts := by
  induction h with
  | nil =>
    intro n _
    cases n <;> rfl
  | space _ ih =>
    intro n hn
    simp only [chars, List.map_cons, List.map_nil, List.cons_append, List.nil_append, List.length_cons] at hn
    obtain ⟨n, rfl⟩ : ∃ m, n = m + 1 := ⟨n - 1, by omega⟩
    exact ih n (by omega)
  | comment =>
    intro n hn
    simp only [chars, List.map_cons, List.map_nil, List.cons_append, List.nil_append, List.length_cons] at hn
    obtain ⟨n, rfl⟩ : ∃ m, n = m + 1 := ⟨n - 1, by omega⟩
    rfl
  | @token us rest t ts hm hl _ ih =>
    intro n hn
    have hne := means_ne hm
    have hlen : 0 < us.length := List.length_pos_iff.2 hne
    rw [List.length_append] at hn
    obtain ⟨n, rfl⟩ : ∃ m, n = m + 1 := ⟨n - 1, by omega⟩
    have ih := ih n (by omega)
    cases hm with
    | kw k =>
      obtain ⟨hr, hd⟩ := kw_named k
      generalize hx : chars k.text = us at hr hd hl hne
      cases us with
      | nil => exact absurd rfl hne
      | cons c us =>
        rw [lexLine_word hr hl, isDigit_false.2 (hd c rfl), ← hx, word_kw, ih]
        rfl
    | name hn hk =>
      cases us with
      | nil => exact absurd rfl hne
      | cons c us =>
        rw [lexLine_word hn.1 hl, isDigit_false.2 (hn.2 c rfl), word_name hn hk, ih]
        rfl
    | @num ps ds ss b m t hb hd hz hs hc =>
      have hnum := number_complete hb hd hz hs
      have hr : Run (ps ++ ds ++ ss) := by
        refine ⟨hne, fun c hc => ?_⟩
        obtain hc | hc := List.mem_append.1 hc
        · obtain hc | hc := List.mem_append.1 hc
          · have : (ps.all isWord) = true := by cases hb <;> rfl
            exact isWord_iff.1 (List.all_eq_true.1 this c hc)
          · exact (hd.chars (by cases hb <;> omega) c hc).1
        · exact suffix_word hs c hc
      have hc' : ∀ c ∈ (ps ++ ds ++ ss).head?, Digit c := by
        intro c h
        refine hc c ?_
        obtain ⟨d, hd, _⟩ := hz
        rw [List.head?_append] at h
        cases e : (ps ++ ds).head? with
        | none =>
          rw [List.head?_eq_none_iff, List.append_eq_nil_iff] at e
          rw [e.2] at hd
          cases hd
        | some x =>
          rw [e] at h
          exact h
      clear hc hz hlen hn
      generalize ps ++ ds ++ ss = us at hr hc' hnum hl hne ⊢
      cases us with
      | nil => exact absurd rfl hne
      | cons c us =>
        rw [lexLine_word hr hl, isDigit_iff.2 (hc' c rfl), hnum, ih]
        rfl
    | @str s hs =>
      have he := startsWord_false.2 ((str_longest hs).1 hl)
      have e : chars ['"'] ++ s ++ chars ['"'] ++ rest = 34 :: (s ++ 34 :: rest) := by simp [chars]
      rw [e, lexLine, lexStep.eq_def]
      simp only [spanStr_complete hs, he, ih]
      rfl
    | @life us hu =>
      obtain ⟨h1, h2⟩ := (life_longest hu.1).1 hl
      have hn : startsName (us ++ rest) = true := by
        cases us with
        | nil => exact absurd rfl hu.1.1
        | cons c us =>
          refine startsName_iff.2 ⟨by simp, fun d e => ?_⟩
          cases e
          exact ⟨hu.1.2 c List.mem_cons_self, hu.2 c rfl⟩
      have e : chars ['\''] ++ us ++ rest = 39 :: (us ++ rest) := by simp [chars]
      rw [e, lexLine, lexStep.eq_def]
      simp only [spanWord_append hu.1.2 h1, hn, h2, ih]
      rfl
    | op o =>
      have hp := punct_complete hl
      have e : lexLine (n + 1) (chars o.text ++ rest) = match punct (chars o.text ++ rest) with
          | some (o, r) => consTok (.op o) (lexLine n r)
          | none => none := by
        cases o <;> rfl
      rw [e, hp]
      simp only [ih]
      rfl

/-- A line has one reading. -/
theorem line_unique {l : List Nat} {ts us : List Tok} (ht : Line l ts) (hu : Line l us) : ts = us :=
  Option.some.inj ((lexLine_complete ht l.length (Nat.le_refl _)).symm.trans
    (lexLine_complete hu l.length (Nat.le_refl _)))

theorem lexLines_sound {ls : List (List Nat)} {ts : List Tok} (h : lexLines ls = some ts) : Lines ls ts := by
  induction ls generalizing ts with
  | nil =>
    cases h
    exact .nil
  | cons l ls ih =>
    rw [lexLines] at h
    split at h
    · rename_i h1
      split at h
      · rename_i h2
        cases h
        exact .cons (lexLine_sound h1) (ih h2)
      · cases h
    · cases h

theorem lexLines_complete {ls : List (List Nat)} {ts : List Tok} (h : Lines ls ts) (hl : ∀ l ∈ ls, l.length ≤ 400) :
    lexLines ls = some ts := by
  induction h with
  | nil => rfl
  | cons h _ ih =>
    have h := lexLine_complete h 400 (hl _ List.mem_cons_self)
    have ih := ih fun l h => hl l (List.mem_cons_of_mem _ h)
    simp only [lexLines, h, ih]

theorem lines_unique {ls : List (List Nat)} {ts us : List Tok} (ht : Lines ls ts) (hu : Lines ls us) : ts = us := by
  induction ht generalizing us with
  | nil =>
    cases hu
    rfl
  | cons h _ ih =>
    cases hu with
    | cons h' hs => rw [line_unique h h', ih hs]

theorem tokens_unique {fs : List (Nat × List (List Nat))} {ts us : List (Nat × List Tok)} (ht : Tokens fs ts)
    (hu : Tokens fs us) : ts = us := by
  induction ht generalizing us with
  | nil =>
    cases hu
    rfl
  | cons h _ ih =>
    cases hu with
    | cons h' hs => rw [lines_unique h h', ih hs]

end Raki.Source
