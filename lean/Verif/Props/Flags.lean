import Verif.Spec.FlagsText
import Verif.Props.DebugPretty
/-!
# Debug text under formatter flags (C71)
-/

namespace Raki

open Spec

/-! ## Padding -/

theorem copies_toList (n : Nat) (c : Char) : (copies n c).toList = List.replicate n c := by
  simp [copies]

theorem padding_placed (f : Flags) (w : Nat) (hw : f.width = some w) (d : Alignment) (s : String)
    (h : s.length ≤ w) : placed f d s.toList (f.padding (w - s.length) d s).toList := by
  have hl : s.toList.length = s.length := String.length_toList
  refine ⟨(match f.align.getD d with | .Left => 0 | .Right => w - s.length | .Center => (w - s.length) / 2),
    w - s.length - (match f.align.getD d with
      | .Left => 0 | .Right => w - s.length | .Center => (w - s.length) / 2), ?_, ?_, ?_⟩
  · simp only [Flags.padding, String.toList_append, copies_toList]
    cases f.align.getD d <;> rfl
  · rw [hw, hl]
    cases f.align.getD d <;> simp only [Option.getD_some] <;> omega
  · cases f.align.getD d <;> simp only <;> omega

theorem placed_self (f : Flags) (d : Alignment) (s : List Char) (h : f.width.getD 0 ≤ s.length) :
    placed f d s s := by
  refine ⟨0, 0, by simp, by omega, ?_⟩
  cases f.align.getD d <;> simp

theorem placed_unique {f : Flags} {d : Alignment} {s t u : List Char} (h : placed f d s t)
    (h' : placed f d s u) : t = u := by
  obtain ⟨a, b, rfl, e, m⟩ := h
  obtain ⟨a', b', rfl, e', m'⟩ := h'
  have : a = a' ∧ b = b' := by
    cases hd : f.align.getD d <;> simp only [hd] at m m' <;> omega
  rw [this.1, this.2]

/-! ## Numbers -/

theorem head_list (f : Flags) (nonneg : Bool) (pre : String) (hp : pre = if f.hex.isSome then "0x" else "") :
    ((if !nonneg then "-" else if f.plus then "+" else "") ++ (if f.alternate then pre else "")).toList =
      numberHead f (!nonneg) := by
  subst hp
  rw [String.toList_append, numberHead]
  cases nonneg <;> cases f.plus <;> cases f.alternate <;> cases f.hex.isSome <;> rfl

theorem padIntegral_is (f : Flags) (nonneg : Bool) (pre digits : String) (n : Nat)
    (hp : pre = if f.hex.isSome then "0x" else "") (hd : isDigits f digits.toList n) :
    isNumberWith f (!nonneg) n (f.padIntegral nonneg pre digits).toList := by
  refine ⟨digits.toList, hd, ?_⟩
  have hh := head_list f nonneg pre hp
  unfold Flags.padIntegral
  generalize ((if !nonneg then "-" else if f.plus then "+" else "") ++ (if f.alternate then pre else "")) = hd
    at hh
  rw [← hh]
  have hl : (hd.toList ++ digits.toList).length = hd.length + digits.length := by
    simp [List.length_append, String.length_toList]
  have hl' : (hd ++ digits).length = hd.length + digits.length := by simp
  have ha : (hd ++ digits).toList = hd.toList ++ digits.toList := String.toList_append
  cases hw : f.width with
  | none =>
    simp only [Option.getD_none, Nat.zero_sub, List.replicate_zero, List.append_nil, ha]
    split
    · trivial
    · exact placed_self _ _ _ (by rw [hw]; exact Nat.zero_le _)
  | some w =>
    simp only [Option.getD_some]
    by_cases hle : w ≤ hd.length + digits.length
    · rw [if_pos hle, ha]
      split
      · rw [hl, Nat.sub_eq_zero_of_le hle]; simp
      · exact placed_self _ _ _ (by rw [hw, hl]; exact hle)
    · rw [if_neg hle]
      split
      · simp only [String.toList_append, copies_toList, hl]
      · rw [← ha, ← hl']
        exact padding_placed f w hw _ _ (by omega)

theorem toUpper_capital (b : Nat) (c : Char) (h : isDigitIn b c) : c.toUpper = capital c := by
  rw [← digitChar_digitVal b c h]
  have hv : digitVal c < 16 := by
    obtain ⟨h, -⟩ := h
    unfold digitVal
    split <;> omega
  generalize digitVal c = d at hv
  have h : d = 0 ∨ d = 1 ∨ d = 2 ∨ d = 3 ∨ d = 4 ∨ d = 5 ∨ d = 6 ∨ d = 7 ∨ d = 8 ∨ d = 9 ∨ d = 10 ∨
    d = 11 ∨ d = 12 ∨ d = 13 ∨ d = 14 ∨ d = 15 := by omega
  rcases h with h|h|h|h|h|h|h|h|h|h|h|h|h|h|h|h <;> subst h <;> decide

theorem decimal_digits (f : Flags) (hf : f.hex = none) (n : Nat) : isDigits f (toString n).toList n := by
  rw [isDigits, hf]
  show isNumeral 10 (Nat.repr n).toList n
  rw [Nat.toList_repr]
  exact (toDigits_isNumeral 10 (by omega) (by omega) n).1

theorem lower_digits (f : Flags) (hf : f.hex = some .Lower) (n : Nat) : isDigits f (hexNat n).toList n := by
  rw [isDigits, hf]
  exact hexNat_isHex n

theorem upper_digits (f : Flags) (hf : f.hex = some .Upper) (n : Nat) : isDigits f (upperHex n).toList n := by
  rw [isDigits, hf]
  have h := (toDigits_isNumeral 16 (by omega) (by omega) n).1
  refine ⟨_, h, ?_⟩
  rw [upperHex, String.toList_ofList]
  exact List.map_congr_left fun c hc => toUpper_capital 16 c (h.2.1 c hc)

theorem usize_with (f : Flags) (n : Nat) : isUsizeWith f n (debugUsizeWith f n).toList := by
  unfold debugUsizeWith isUsizeWith
  cases hf : f.hex with
  | none => exact padIntegral_is f true _ _ n (by rw [hf]; rfl) (decimal_digits f hf n)
  | some c =>
    cases c with
    | Lower => exact padIntegral_is f true _ _ n (by rw [hf]; rfl) (lower_digits f hf n)
    | Upper => exact padIntegral_is f true _ _ n (by rw [hf]; rfl) (upper_digits f hf n)

theorem i32_with (f : Flags) (z : Int) : isI32With f z (debugI32With f z).toList := by
  unfold debugI32With isI32With
  cases hf : f.hex with
  | none =>
    rw [if_neg (by simp)]
    have := padIntegral_is f (decide (0 ≤ z)) "" (toString z.natAbs) _ (by rw [hf]; rfl)
      (decimal_digits f hf z.natAbs)
    have e : (!decide (0 ≤ z)) = decide (z < 0) := by
      by_cases h : 0 ≤ z
      · simp [h]
      · simp [Int.not_le.1 h]
    rwa [e] at this
  | some c =>
    rw [if_pos (by simp)]
    have e : (z % 2 ^ 32).toNat = (BitVec.ofInt 32 z).toNat := by rw [BitVec.toNat_ofInt]; rfl
    rw [e]
    cases c with
    | Lower => exact padIntegral_is f true _ _ _ (by rw [hf]; rfl) (lower_digits f hf _)
    | Upper => exact padIntegral_is f true _ _ _ (by rw [hf]; rfl) (upper_digits f hf _)

theorem pad_placed (f : Flags) (s : String) : placed f .Left s.toList
    (match f.width with
      | none => s
      | some w => if w ≤ s.length then s else f.padding (w - s.length) .Left s).toList := by
  cases hw : f.width with
  | none => exact placed_self _ _ _ (by rw [hw]; exact Nat.zero_le _)
  | some w =>
    show placed f .Left s.toList (if w ≤ s.length then s else f.padding (w - s.length) .Left s).toList
    by_cases hl : w ≤ s.length
    · rw [if_pos hl]
      exact placed_self _ _ _ (by rw [hw, String.length_toList]; exact hl)
    · rw [if_neg hl]
      exact padding_placed f w hw _ _ (by omega)

theorem bool_with (f : Flags) (b : Bool) : isBoolWith f b (debugBoolWith f b).toList := by
  have h := pad_placed f (match f.precision with
    | none => debugBool b
    | some p => String.ofList ((debugBool b).toList.take p))
  have ht : (match f.precision with
      | none => debugBool b
      | some p => String.ofList ((debugBool b).toList.take p)).toList =
      (if b then "true" else "false" : String).toList.take (f.precision.getD 5) := by
    cases f.precision with
    | none => cases b <;> rfl
    | some p => rw [← debug_bool]; simp
  rw [ht] at h
  exact h

theorem digits_unique {f : Flags} {cs ds : List Char} {n : Nat} (h : isDigits f cs n) (h' : isDigits f ds n) :
    cs = ds := by
  unfold isDigits at h h'
  rcases hf : f.hex with _ | c | c <;> rw [hf] at h h'
  · exact numeral_unique (by omega) (by omega) h h'
  · exact numeral_unique (by omega) (by omega) h h'
  · obtain ⟨a, h, rfl⟩ := h
    obtain ⟨b, h', rfl⟩ := h'
    rw [numeral_unique (by omega) (by omega) h h']

theorem number_unique {f : Flags} {neg : Bool} {n : Nat} {t u : List Char} (h : isNumberWith f neg n t)
    (h' : isNumberWith f neg n u) : t = u := by
  obtain ⟨ds, hd, h⟩ := h
  obtain ⟨es, he, h'⟩ := h'
  rw [digits_unique hd he] at h
  split at h <;> rename_i hz
  · rw [if_pos hz] at h'; exact h.trans h'.symm
  · rw [if_neg hz] at h'; exact placed_unique h h'

theorem i32_unique {f : Flags} {z : Int} {t u : List Char} (h : isI32With f z t) (h' : isI32With f z u) :
    t = u := by
  unfold isI32With at h h'
  split at h <;> rename_i hz
  · rw [if_pos hz] at h'; exact number_unique h h'
  · rw [if_neg hz] at h'; exact number_unique h h'

theorem option_unique {α : Type} {f : Flags} {P : α → List Char → Prop}
    (hP : ∀ a t u, P a t → P a u → t = u) {s t : List Char} {o : Option α} (h : isOptionWith f P s o)
    (h' : isOptionWith f P t o) : s = t := by
  cases o with
  | none => exact h.trans h'.symm
  | some a =>
    obtain ⟨x, hx, rfl⟩ := h
    obtain ⟨y, hy, rfl⟩ := h'
    rw [hP a x y hx hy]

/-- C71.  A register number under flags. -/
theorem C71_register (f : Flags) (n : Nat) (s : String) : debugUsizeWith f n = s ↔ isUsizeWith f n s.toList := by
  constructor
  · rintro rfl; exact usize_with f n
  · exact fun h => string_ext (number_unique (usize_with f n) h)

/-- C71.  An immediate under flags. -/
theorem C71_immediate (f : Flags) (z : Int) (s : String) : debugI32With f z = s ↔ isI32With f z s.toList := by
  constructor
  · rintro rfl; exact i32_with f z
  · exact fun h => string_ext (i32_unique (i32_with f z) h)

/-! ## The layout -/

theorem hang_hang (a b : Nat) (cs : List Char) : hang a (hang b cs) = hang (a + b) cs := by
  have sp : ∀ n, hang a (List.replicate n ' ') = List.replicate n ' ' := by
    intro n
    induction n with
    | zero => rfl
    | succ n ih =>
      rw [List.replicate_succ, hang, List.flatMap_cons, ← hang, ih]
      rfl
  induction cs with
  | nil => rfl
  | cons c cs ih =>
    have step : ∀ n, hang n (c :: cs) = (if c = '\n' then '\n' :: List.replicate n ' ' else [c]) ++ hang n cs :=
      fun _ => List.flatMap_cons
    rw [step, step, hang, List.flatMap_append, ← hang, ← hang, ih]
    congr 1
    by_cases hc : c = '\n'
    · rw [if_pos hc, if_pos hc, hang, List.flatMap_cons, ← hang, sp, if_pos rfl, List.cons_append,
        List.replicate_append_replicate]
    · rw [if_neg hc, if_neg hc]
      simp [hang, hc]

theorem pad_hang (nl : Bool) (xs : List Char) (c : Char) (ys : List Char) (hc : c ≠ '\n') :
    padAdapter nl (xs ++ c :: ys) =
      (if nl then [' ', ' ', ' ', ' '] else []) ++ hang 4 xs ++ c :: padAdapter false ys := by
  have hc' : (c == '\n') = false := by simpa using hc
  induction xs generalizing nl with
  | nil => simp [padAdapter, hang, hc']
  | cons d xs ih =>
    rw [List.cons_append, padAdapter, ih, hang, hang, List.flatMap_cons]
    by_cases hd : d = '\n'
    · simp [hd, List.replicate]
    · simp [hd]

theorem hang_id (n : Nat) (xs : List Char) (h : ∀ c ∈ xs, c ≠ '\n') : hang n xs = xs := by
  induction xs with
  | nil => rfl
  | cons c xs ih =>
    rw [hang, List.flatMap_cons, ← hang, ih fun d hd => h d (by simp [hd]), if_neg (h c (by simp))]
    rfl

theorem hang_append (n : Nat) (xs ys : List Char) : hang n (xs ++ ys) = hang n xs ++ hang n ys :=
  List.flatMap_append

theorem field_list (s : String) : (prettyField s).toList = "    ".toList ++ hang 4 s.toList ++ ",\n".toList := by
  have e : (s ++ ",\n").toList = s.toList ++ ',' :: ['\n'] := by rw [String.toList_append]; rfl
  rw [prettyField, String.toList_ofList, e, pad_hang _ _ _ _ (by decide)]
  simp [padAdapter]

theorem tuple_list (n v : String) : (prettyTuple1 n v).toList =
    n.toList ++ "(\n    ".toList ++ hang 4 v.toList ++ ",\n)".toList := by
  rw [prettyTuple1]
  simp only [String.toList_append, field_list]
  simp

theorem option_pretty {α : Type} (f : Flags) (ha : f.alternate = true) (g : α → String)
    (P : α → List Char → Prop) (h : ∀ a, P a (g a).toList) (o : Option α) :
    ∃ s, isOptionWith f P s o ∧ hang 4 (debugOptionWith f g o).toList = s := by
  refine ⟨_, ?_, rfl⟩
  rw [debugOptionWith, if_pos ha]
  cases o with
  | none =>
    show hang 4 "None".toList = "None".toList
    decide
  | some a =>
    refine ⟨_, h a, ?_⟩
    rw [if_pos ha, prettyOption, tuple_list]
    simp only [hang_append, hang_hang]
    simp [hang, List.replicate]

theorem option_plain {α : Type} (f : Flags) (ha : f.alternate = false) (g : α → String)
    (P : α → List Char → Prop) (h : ∀ a, P a (g a).toList) (o : Option α) :
    isOptionWith f P (debugOptionWith f g o).toList o := by
  rw [debugOptionWith, if_neg (by simp [ha])]
  cases o with
  | none => rfl
  | some a =>
    refine ⟨_, h a, ?_⟩
    rw [if_neg (by simp [ha]), debugOption, String.toList_append, String.toList_append]

theorem with_is_text (f : Flags) (i : Instruction) : isDebugTextWith f i (i.debugWith f) := by
  cases ha : f.alternate with
  | false =>
    refine ⟨_, _, _, _, _, option_plain f ha _ _ (usize_with f) i.rd, option_plain f ha _ _ (usize_with f) i.rs1,
      option_plain f ha _ _ (usize_with f) i.rs2, option_plain f ha _ _ (i32_with f) i.imm, bool_with f _, ?_⟩
    rw [Instruction.debugWith, OpcodeKind.debugWith]
    simp only [ha, Bool.false_eq_true, if_false, debug_opcode, debug_format, String.toList_append]
    have e : "), rd: ".toList = ")".toList ++ ", rd: ".toList := by decide
    rw [e]
    simp only [List.append_assoc]
  | true =>
    obtain ⟨a, ha1, ea⟩ := option_pretty f ha _ _ (usize_with f) i.rd
    obtain ⟨b, hb, eb⟩ := option_pretty f ha _ _ (usize_with f) i.rs1
    obtain ⟨c, hc, ec⟩ := option_pretty f ha _ _ (usize_with f) i.rs2
    obtain ⟨d, hd, ed⟩ := option_pretty f ha _ _ (i32_with f) i.imm
    refine ⟨a, b, c, d, _, ha1, hb, hc, hd, bool_with f _, ?_⟩
    rw [Instruction.debugWith, OpcodeKind.debugWith]
    simp only [ha, if_true, prettyStruct, List.foldr_cons, List.foldr_nil, pretty_opcode, debug_format,
      String.toList_append, field_list, hang_append, tuple_list, ea, eb, ec, ed,
      hang_id _ _ (extension_newline i.opc), hang_id _ _ (opcode_newline i.opc),
      hang_id _ _ (format_newline i.instFormat)]
    simp [hang, List.replicate]

/-- C71.  The debug text of an instruction value under any flags is the one described by the specification. -/
theorem C71_text (f : Flags) (i : Instruction) (s : String) : i.debugWith f = s ↔ isDebugTextWith f i s := by
  constructor
  · rintro rfl; exact with_is_text f i
  · intro h
    obtain ⟨a, b, c, d, x, ha, hb, hc, hd, hx, e⟩ := with_is_text f i
    obtain ⟨a', b', c', d', x', ha', hb', hc', hd', hx', e'⟩ := h
    apply string_ext
    have un : ∀ n t u, isUsizeWith f n t → isUsizeWith f n u → t = u := fun _ _ _ => number_unique
    have ui : ∀ n t u, isI32With f n t → isI32With f n u → t = u := fun _ _ _ => i32_unique
    rw [e, e', option_unique un ha ha', option_unique un hb hb', option_unique un hc hc',
      option_unique ui hd hd', placed_unique hx hx']

/-! ## Flags that change nothing -/

theorem usize_plain (f : Flags) (hw : f.width = none) (hp : f.plus = false) (hx : f.hex = none) (n : Nat) :
    debugUsizeWith f n = toString n := by
  simp [debugUsizeWith, hx, Flags.padIntegral, hw, hp]

theorem i32_plain (f : Flags) (hw : f.width = none) (hp : f.plus = false) (hx : f.hex = none) (z : Int) :
    debugI32With f z = toString z := by
  cases z with
  | ofNat n => simp [debugI32With, hx, Flags.padIntegral, hw, hp]; rfl
  | negSucc n =>
    have h : decide (0 ≤ Int.negSucc n) = false := by simp
    simp only [debugI32With, hx, Flags.padIntegral, hw, h]
    cases f.alternate <;> rfl

/-- C71.  Without width, precision, `+` and hexadecimal digits the text is that of `{:?}` or `{:#?}`, whatever
the fill character, the alignment and the flag `0` are. -/
theorem C71_plain (f : Flags) (hw : f.width = none) (hr : f.precision = none) (hp : f.plus = false)
    (hx : f.hex = none) (i : Instruction) :
    i.debugWith f = if f.alternate then i.debugPretty else i.debug := by
  have h1 : debugUsizeWith f = toString := funext (usize_plain f hw hp hx)
  have h2 : debugI32With f = toString := funext (i32_plain f hw hp hx)
  have h3 : ∀ b, debugBoolWith f b = debugBool b := by intro b; simp [debugBoolWith, Flags.pad, hw, hr]
  unfold Instruction.debugWith OpcodeKind.debugWith debugOptionWith Instruction.debug Instruction.debugPretty
  rw [h1, h2, h3]
  generalize debugOption toString i.rd = a, prettyOption toString i.rd = a', debugOption toString i.rs1 = b,
    prettyOption toString i.rs1 = b', debugOption toString i.rs2 = c, prettyOption toString i.rs2 = c',
    debugOption toString i.imm = d, prettyOption toString i.imm = d', i.opc.debug = x, i.opc.debugPretty = x',
    i.instFormat.debug = y, debugBool i.isCompressed = z
  cases f.alternate
  · simp only [Bool.false_eq_true, if_false]
  · simp only [if_true]

/-! ## The text determines the value -/

/-- Kept when spaces, line breaks, commas and the fill character are struck out. -/
def isInkWith (fill c : Char) : Bool := c != ' ' && c != '\n' && c != ',' && c != fill

/-- A character the fill character is never taken for. -/
def firm (c : Char) : Bool := c.isAlphanum || c ∈ ['_', '(', ')', '+', '-']

theorem ink_firm {fill c : Char} (h : plainFill fill) (hc : firm c = true) : isInkWith fill c = true := by
  have h1 : c ≠ ' ' := by rintro rfl; exact absurd hc (by decide)
  have h2 : c ≠ '\n' := by rintro rfl; exact absurd hc (by decide)
  have h3 : c ≠ ',' := by rintro rfl; exact absurd hc (by decide)
  have h4 : c ≠ fill := by
    rintro rfl
    simp only [firm, Bool.or_eq_true, decide_eq_true_eq] at hc
    rcases hc with hc | hc
    · exact h.1 hc
    · exact h.2 hc
  simp [isInkWith, h1, h2, h3, h4]

theorem ink_id {fill : Char} (h : plainFill fill) {cs : List Char} (hc : ∀ c ∈ cs, firm c = true) :
    cs.filter (isInkWith fill) = cs :=
  List.filter_eq_self.2 fun c hm => ink_firm h (hc c hm)

theorem ink_fill (fill : Char) (n : Nat) : (List.replicate n fill).filter (isInkWith fill) = [] := by
  rw [List.filter_eq_nil_iff]
  intro c hc
  rw [List.eq_of_mem_replicate hc]
  simp [isInkWith]

theorem ink_hang (fill : Char) (n : Nat) (cs : List Char) :
    (hang n cs).filter (isInkWith fill) = cs.filter (isInkWith fill) := by
  have sp : (List.replicate n ' ').filter (isInkWith fill) = [] := by
    rw [List.filter_eq_nil_iff]
    intro c hc
    rw [List.eq_of_mem_replicate hc]
    simp [isInkWith]
  induction cs with
  | nil => rfl
  | cons c cs ih =>
    have step : hang n (c :: cs) = (if c = '\n' then '\n' :: List.replicate n ' ' else [c]) ++ hang n cs :=
      List.flatMap_cons
    have e : c :: cs = [c] ++ cs := rfl
    rw [step, List.filter_append, ih, e, List.filter_append]
    congr 1
    by_cases hc : c = '\n'
    · rw [if_pos hc, hc, List.filter_cons, List.filter_cons, sp]
      simp [isInkWith]
    · rw [if_neg hc]

theorem ink_placed {f : Flags} {d : Alignment} {s t : List Char} (h : placed f d s t) :
    t.filter (isInkWith f.fill) = s.filter (isInkWith f.fill) := by
  obtain ⟨a, b, rfl, -, -⟩ := h
  rw [List.filter_append, List.filter_append, ink_fill, ink_fill, List.nil_append, List.append_nil]

theorem digit_firm {b : Nat} {c : Char} (h : isDigitIn b c) :
    firm c = true ∧ firm (capital c) = true ∧ c ≠ ')' ∧ capital c ≠ ')' ∧ c ≠ '-' ∧ capital c ≠ '-' := by
  rw [← digitChar_digitVal b c h]
  have hv : digitVal c < 16 := by
    obtain ⟨h, -⟩ := h
    unfold digitVal
    split <;> omega
  generalize digitVal c = d at hv
  have h : d = 0 ∨ d = 1 ∨ d = 2 ∨ d = 3 ∨ d = 4 ∨ d = 5 ∨ d = 6 ∨ d = 7 ∨ d = 8 ∨ d = 9 ∨ d = 10 ∨
    d = 11 ∨ d = 12 ∨ d = 13 ∨ d = 14 ∨ d = 15 := by omega
  rcases h with h|h|h|h|h|h|h|h|h|h|h|h|h|h|h|h <;> subst h <;> decide

theorem capital_inj {b : Nat} {c d : Char} (hc : isDigitIn b c) (hd : isDigitIn b d)
    (h : capital c = capital d) : c = d := by
  have back : ∀ c, isDigitIn b c → ∃ n, n < 16 ∧ c = Nat.digitChar n := by
    intro c h
    refine ⟨digitVal c, ?_, (digitChar_digitVal b c h).symm⟩
    obtain ⟨h, -⟩ := h
    unfold digitVal
    split <;> omega
  obtain ⟨n, hn, rfl⟩ := back c hc
  obtain ⟨m, hm, rfl⟩ := back d hd
  have key : ∀ n < 16, ∀ m < 16, capital (Nat.digitChar n) = capital (Nat.digitChar m) → n = m := by decide
  rw [key n hn m hm h]

theorem map_capital_inj {b : Nat} : ∀ {cs ds : List Char}, (∀ c ∈ cs, isDigitIn b c) →
    (∀ c ∈ ds, isDigitIn b c) → cs.map capital = ds.map capital → cs = ds
  | [], [], _, _, _ => rfl
  | [], _ :: _, _, _, h => by simp at h
  | _ :: _, [], _, _, h => by simp at h
  | c :: cs, d :: ds, hc, hd, h => by
    simp only [List.map_cons, List.cons.injEq] at h
    rw [capital_inj (hc c (by simp)) (hd d (by simp)) h.1,
      map_capital_inj (fun x hx => hc x (by simp [hx])) (fun x hx => hd x (by simp [hx])) h.2]

theorem digitsVal_zeros (b k : Nat) (cs : List Char) :
    digitsVal b (List.replicate k '0' ++ cs) = digitsVal b cs := by
  induction k with
  | zero => rfl
  | succ k ih =>
    rw [← ih]
    show List.foldl _ (0 * b + digitVal '0') _ = List.foldl _ 0 _
    rw [show 0 * b + digitVal '0' = 0 by rw [Nat.zero_mul]; decide]
    rfl

theorem zero_digit (b : Nat) (hb : 1 < b) : isDigitIn b '0' :=
  ⟨by decide, Nat.lt_of_le_of_lt (by decide) hb⟩

/-- Digits with zeros in front of them: their value is determined. -/
theorem digits_zeros {f : Flags} {cs ds : List Char} {n m k l : Nat} (h : isDigits f cs n)
    (h' : isDigits f ds m) (e : List.replicate k '0' ++ cs = List.replicate l '0' ++ ds) : n = m := by
  unfold isDigits at h h'
  rcases hf : f.hex with _ | c | c <;> rw [hf] at h h'
  · rw [← h.2.2.2, ← h'.2.2.2, ← digitsVal_zeros 10 k, e, digitsVal_zeros]
  · rw [← h.2.2.2, ← h'.2.2.2, ← digitsVal_zeros 16 k, e, digitsVal_zeros]
  · obtain ⟨a, h, rfl⟩ := h
    obtain ⟨b, h', rfl⟩ := h'
    have z : ∀ k, List.replicate k '0' = (List.replicate k '0').map capital := by
      intro k; rw [List.map_replicate]; congr 1
    rw [z k, z l, ← List.map_append, ← List.map_append] at e
    have hd : ∀ (k : Nat) (x : List Char), (∀ c ∈ x, isDigitIn 16 c) →
        ∀ c ∈ List.replicate k '0' ++ x, isDigitIn 16 c := by
      intro k x hx c hc
      rcases List.mem_append.1 hc with hc | hc
      · rw [List.eq_of_mem_replicate hc]; exact zero_digit 16 (by omega)
      · exact hx c hc
    have e := map_capital_inj (hd k a h.2.1) (hd l b h'.2.1) e
    rw [← h.2.2.2, ← h'.2.2.2, ← digitsVal_zeros 16 k, e, digitsVal_zeros]

theorem digits_chars {f : Flags} {ds : List Char} {n : Nat} (h : isDigits f ds n) :
    ∀ c ∈ ds, firm c = true ∧ c ≠ ')' ∧ c ≠ '-' := by
  intro c hc
  unfold isDigits at h
  rcases hf : f.hex with _ | x | x <;> rw [hf] at h
  · have := digit_firm (h.2.1 c hc); exact ⟨this.1, this.2.2.1, this.2.2.2.2.1⟩
  · have := digit_firm (h.2.1 c hc); exact ⟨this.1, this.2.2.1, this.2.2.2.2.1⟩
  · obtain ⟨es, h, rfl⟩ := h
    obtain ⟨d, hd, rfl⟩ := List.mem_map.1 hc
    have := digit_firm (h.2.1 d hd); exact ⟨this.2.1, this.2.2.2.1, this.2.2.2.2.2⟩

theorem head_chars (f : Flags) (neg : Bool) : ∀ c ∈ numberHead f neg, firm c = true ∧ c ≠ ')' := by
  unfold numberHead
  cases neg <;> cases f.plus <;> cases (f.hex.isSome && f.alternate) <;> decide

/-- What is left of a number when the fill characters are struck out. -/
theorem number_ink {f : Flags} {neg : Bool} {n : Nat} {t : List Char} (hf : plainFill f.fill)
    (h : isNumberWith f neg n t) : ∃ k ds, isDigits f ds n ∧
      t.filter (isInkWith f.fill) = numberHead f neg ++ (List.replicate k '0' ++ ds) := by
  obtain ⟨ds, hd, h⟩ := h
  have hh : ∀ c ∈ numberHead f neg ++ ds, firm c = true := by
    intro c hc
    rcases List.mem_append.1 hc with hc | hc
    · exact (head_chars f neg c hc).1
    · exact (digits_chars hd c hc).1
  split at h
  · refine ⟨f.width.getD 0 - (numberHead f neg ++ ds).length, ds, hd, ?_⟩
    rw [h, List.append_assoc]
    apply ink_id hf
    intro c hc
    rcases List.mem_append.1 hc with hc | hc
    · exact (head_chars f neg c hc).1
    · rcases List.mem_append.1 hc with hc | hc
      · rw [List.eq_of_mem_replicate hc]; decide
      · exact (digits_chars hd c hc).1
  · exact ⟨0, ds, hd, by rw [ink_placed h, ink_id hf hh]; rfl⟩

theorem number_paren {f : Flags} {neg : Bool} {n : Nat} {t : List Char} (hf : plainFill f.fill)
    (h : isNumberWith f neg n t) : ∀ c ∈ t.filter (isInkWith f.fill), c ≠ ')' := by
  obtain ⟨k, ds, hd, e⟩ := number_ink hf h
  rw [e]
  intro c hc
  rcases List.mem_append.1 hc with hc | hc
  · exact (head_chars f neg c hc).2
  · rcases List.mem_append.1 hc with hc | hc
    · rw [List.eq_of_mem_replicate hc]; decide
    · exact (digits_chars hd c hc).2.1

theorem number_inj {f : Flags} {neg neg' : Bool} {n m : Nat} {t u : List Char} (hf : plainFill f.fill)
    (h : isNumberWith f neg n t) (h' : isNumberWith f neg' m u)
    (e : t.filter (isInkWith f.fill) = u.filter (isInkWith f.fill)) : neg = neg' ∧ n = m := by
  obtain ⟨k, ds, hd, e1⟩ := number_ink hf h
  obtain ⟨l, es, he, e2⟩ := number_ink hf h'
  rw [e1, e2] at e
  have hm0 : ∀ c ∈ numberHead f false, c ≠ '-' := by
    unfold numberHead
    cases f.plus <;> cases (f.hex.isSome && f.alternate) <;> decide
  have first : ∀ (k : Nat) (ds : List Char) (n : Nat), isDigits f ds n → ∀ c,
      (numberHead f false ++ (List.replicate k '0' ++ ds)).head? = some c → c ≠ '-' := by
    intro k ds n hd c hc
    have hm := List.mem_of_head? hc
    rcases List.mem_append.1 hm with hm | hm
    · exact hm0 c hm
    · rcases List.mem_append.1 hm with hm | hm
      · rw [List.eq_of_mem_replicate hm]; decide
      · exact (digits_chars hd c hm).2.2
  have hn : ∀ x : List Char, (numberHead f true ++ x).head? = some '-' := by
    intro x; unfold numberHead; simp
  have hneg : neg = neg' := by
    cases neg <;> cases neg'
    · rfl
    · exact absurd rfl (first k ds n hd '-' (by rw [e, hn]))
    · exact absurd rfl (first l es m he '-' (by rw [← e, hn]))
    · rfl
  subst hneg
  exact ⟨rfl, digits_zeros hd he (List.append_cancel_left e)⟩

theorem option_step {α : Type} {f : Flags} {P : α → List Char → Prop} (hf : plainFill f.fill)
    (hc : ∀ a t, P a t → ∀ c ∈ t.filter (isInkWith f.fill), c ≠ ')')
    {s t : List Char} {o p : Option α} (h : isOptionWith f P s o) (h' : isOptionWith f P t p)
    (hi : ∀ a b t u, o = some a → p = some b → P a t → P b u →
      t.filter (isInkWith f.fill) = u.filter (isInkWith f.fill) → a = b) {x y : List Char}
    (e : s.filter (isInkWith f.fill) ++ x = t.filter (isInkWith f.fill) ++ y) : o = p ∧ x = y := by
  have hn : "None".toList.filter (isInkWith f.fill) = ['N', 'o', 'n', 'e'] := ink_id hf (by decide)
  have ho : "Some(".toList.filter (isInkWith f.fill) = ['S', 'o', 'm', 'e', '('] := ink_id hf (by decide)
  have hc1 : ")".toList.filter (isInkWith f.fill) = [')'] := ink_id hf (by decide)
  have hs : ∀ t : List Char, (if f.alternate then "Some(\n        ".toList ++ hang 8 t ++ ",\n    )".toList
      else "Some(".toList ++ t ++ ")".toList).filter (isInkWith f.fill) =
      'S' :: 'o' :: 'm' :: 'e' :: '(' :: (t.filter (isInkWith f.fill) ++ [')']) := by
    intro t
    cases f.alternate
    · simp only [Bool.false_eq_true, if_false, List.filter_append, ho, hc1]
      rfl
    · have e1 : "Some(\n        ".toList = "Some(".toList ++ hang 8 ['\n'] := by decide
      have e2 : ",\n    )".toList = ',' :: hang 4 ['\n'] ++ ")".toList := by decide
      have e3 : [','].filter (isInkWith f.fill) = [] := by simp [isInkWith]
      have e4 : ['\n'].filter (isInkWith f.fill) = [] := by simp [isInkWith]
      have e5 : ∀ l, ',' :: l = [','] ++ l := fun _ => rfl
      rw [if_pos rfl, e1, e2, e5]
      simp only [List.filter_append, ink_hang, ho, hc1, e3, e4]
      simp
  cases o with
  | none =>
    rw [show s = _ from h, hn] at e
    cases p with
    | none =>
      rw [show t = _ from h', hn] at e
      exact ⟨rfl, List.append_cancel_left e⟩
    | some b =>
      obtain ⟨u, -, rfl⟩ := h'
      rw [hs] at e
      injection e with e
      exact absurd e (by decide)
  | some a =>
    obtain ⟨v, hv, rfl⟩ := h
    rw [hs] at e
    cases p with
    | none =>
      rw [show t = _ from h', hn] at e
      injection e with e
      exact absurd e (by decide)
    | some b =>
      obtain ⟨u, hu, rfl⟩ := h'
      rw [hs] at e
      simp only [List.cons_append, List.cons.injEq, true_and, List.append_assoc, List.nil_append] at e
      obtain ⟨e1, e2⟩ := split_at ')' _ _ _ _ (hc a v hv) (hc b u hu) e
      exact ⟨by rw [hi a b v u rfl rfl hv hu e1], e2⟩

theorem i32_paren {f : Flags} (hf : plainFill f.fill) (z : Int) (t : List Char) (h : isI32With f z t) :
    ∀ c ∈ t.filter (isInkWith f.fill), c ≠ ')' := by
  unfold isI32With at h
  split at h
  · exact number_paren hf h
  · exact number_paren hf h

theorem i32_inj {f : Flags} (hf : plainFill f.fill) {z y : Int} (hz : -2 ^ 31 ≤ z ∧ z < 2 ^ 31)
    (hy : -2 ^ 31 ≤ y ∧ y < 2 ^ 31) {t u : List Char} (h : isI32With f z t) (h' : isI32With f y u)
    (e : t.filter (isInkWith f.fill) = u.filter (isInkWith f.fill)) : z = y := by
  unfold isI32With at h h'
  split at h <;> rename_i hx
  · rw [if_pos hx] at h'
    have := (number_inj hf h h' e).2
    omega
  · rw [if_neg hx] at h'
    obtain ⟨h1, h2⟩ := number_inj hf h h' e
    have : z < 0 ↔ y < 0 := by simpa using h1
    omega

theorem bool_ink {f : Flags} (hf : plainFill f.fill) (hp : f.precision ≠ some 0) {b : Bool} {t : List Char}
    (h : isBoolWith f b t) : (t.filter (isInkWith f.fill)).head? = some (if b then 't' else 'f') := by
  have hk : ∃ k, f.precision.getD 5 = k + 1 := by
    cases hq : f.precision with
    | none => exact ⟨4, rfl⟩
    | some k =>
      cases k with
      | zero => exact absurd hq hp
      | succ k => exact ⟨k, rfl⟩
  obtain ⟨k, hk⟩ := hk
  rw [ink_placed h, hk, ink_id hf]
  · cases b <;> rfl
  · intro c hc
    have hb : ∀ c ∈ (if b then "true" else "false" : String).toList, firm c = true := by cases b <;> decide
    exact hb c (List.mem_of_mem_take hc)

theorem ink_extension {fill : Char} (hf : plainFill fill) (op : OpcodeKind) :
    (extensionName op).toList.filter (isInkWith fill) = (extensionName op).toList := by
  apply ink_id hf
  cases op <;> (simp only [extensionName]; decide)

theorem ink_opcode {fill : Char} (hf : plainFill fill) (op : OpcodeKind) :
    (opcodeName op).toList.filter (isInkWith fill) = (opcodeName op).toList := by
  apply ink_id hf
  rcases op with o | o | o | o | o | o | o | o | o | o
  all_goals cases o
  all_goals decide

theorem ink_format {fill : Char} (hf : plainFill fill) (x : InstFormat) :
    (formatName x).toList.filter (isInkWith fill) = (formatName x).toList := by
  apply ink_id hf
  cases x <;> decide

/-- What is left of the text of an instruction when spaces, line breaks, commas and fill characters are struck
out is the same with and without `#`. -/
theorem text_ink {f : Flags} (hf : plainFill f.fill) (i : Instruction) :
    ∃ rd rs1 rs2 imm c, isOptionWith f (isUsizeWith f) rd i.rd ∧ isOptionWith f (isUsizeWith f) rs1 i.rs1 ∧
      isOptionWith f (isUsizeWith f) rs2 i.rs2 ∧ isOptionWith f (isI32With f) imm i.imm ∧
      isBoolWith f i.isCompressed c ∧
      (i.debugWith f).toList.filter (isInkWith f.fill) =
        "Instruction{opc:".toList.filter (isInkWith f.fill) ++ ((extensionName i.opc).toList ++ '(' ::
          ((opcodeName i.opc).toList ++ ')' :: ("rd:".toList.filter (isInkWith f.fill) ++
          (rd.filter (isInkWith f.fill) ++ ("rs1:".toList.filter (isInkWith f.fill) ++
          (rs1.filter (isInkWith f.fill) ++ ("rs2:".toList.filter (isInkWith f.fill) ++
          (rs2.filter (isInkWith f.fill) ++ ("imm:".toList.filter (isInkWith f.fill) ++
          (imm.filter (isInkWith f.fill) ++ ("inst_format:".toList.filter (isInkWith f.fill) ++
          (((formatName i.instFormat).toList ++ ['i', 's']) ++ '_' ::
          ("compressed:".toList.filter (isInkWith f.fill) ++ (c.filter (isInkWith f.fill) ++
          "}".toList.filter (isInkWith f.fill))))))))))))))) := by
  obtain ⟨a, b, c, d, x, ha, hb, hc, hd, hx, e⟩ := with_is_text f i
  refine ⟨a, b, c, d, x, ha, hb, hc, hd, hx, ?_⟩
  have hsp : isInkWith f.fill ' ' = false := by simp [isInkWith]
  have hnl : isInkWith f.fill '\n' = false := by simp [isInkWith]
  have hcm : isInkWith f.fill ',' = false := by simp [isInkWith]
  have h1 : isInkWith f.fill '(' = true := ink_firm hf (by decide)
  have h2 : isInkWith f.fill ')' = true := ink_firm hf (by decide)
  have h3 : isInkWith f.fill '_' = true := ink_firm hf (by decide)
  have h4 : isInkWith f.fill 'i' = true := ink_firm hf (by decide)
  have h5 : isInkWith f.fill 's' = true := ink_firm hf (by decide)
  rw [e]
  cases f.alternate
  · simp only [Bool.false_eq_true, if_false, List.filter_append, ink_extension hf, ink_opcode hf, ink_format hf,
      List.append_assoc]
    generalize isInkWith f.fill = p at *
    simp [List.filter_cons, hsp, hcm, h1, h2, h3, h4, h5]
  · simp only [if_true, List.filter_append, ink_extension hf, ink_opcode hf, ink_format hf, ink_hang,
      List.append_assoc]
    generalize isInkWith f.fill = p at *
    simp [List.filter_cons, hsp, hnl, hcm, h1, h2, h3, h4, h5]

/-- C71.  With a fill character that is not a letter, a digit, an underscore, a sign or a parenthesis, and a
precision that leaves at least one character, instruction values with the same text are the same; the
immediates are taken from the range of `i32`. -/
theorem C71_injective (f : Flags) (hf : plainFill f.fill) (hp : f.precision ≠ some 0) (i j : Instruction)
    (hi : ∀ z, i.imm = some z → -2 ^ 31 ≤ z ∧ z < 2 ^ 31) (hj : ∀ z, j.imm = some z → -2 ^ 31 ≤ z ∧ z < 2 ^ 31)
    (h : i.debugWith f = j.debugWith f) : i = j := by
  obtain ⟨a, b, c, d, x, ha, hb, hc, hd, hx, e⟩ := text_ink hf i
  obtain ⟨a', b', c', d', x', ha', hb', hc', hd', hx', e'⟩ := text_ink hf j
  rw [h, e'] at e
  have h := List.append_cancel_left e.symm
  have nx : ∀ op : OpcodeKind, ∀ c ∈ (extensionName op).toList, c ≠ '(' := by
    intro op; cases op <;> (simp only [extensionName]; decide)
  have no : ∀ op : OpcodeKind, ∀ c ∈ (opcodeName op).toList, c ≠ ')' := by
    intro op
    rcases op with o | o | o | o | o | o | o | o | o | o
    all_goals cases o
    all_goals decide
  have nf : ∀ f : InstFormat, ∀ c ∈ (formatName f).toList ++ ['i', 's'], c ≠ '_' := by
    intro f; cases f <;> decide
  have un : ∀ n t, isUsizeWith f n t → ∀ c ∈ t.filter (isInkWith f.fill), c ≠ ')' :=
    fun _ _ h => number_paren hf h
  have ui : ∀ (o p : Option Nat) a b t u, o = some a → p = some b → isUsizeWith f a t → isUsizeWith f b u →
      t.filter (isInkWith f.fill) = u.filter (isInkWith f.fill) → a = b :=
    fun _ _ _ _ _ _ _ _ h h' e => (number_inj hf h h' e).2
  obtain ⟨e1, h⟩ := split_at '(' _ _ _ _ (nx _) (nx _) h
  obtain ⟨e2, h⟩ := split_at ')' _ _ _ _ (no _) (no _) h
  obtain ⟨e3, h⟩ := option_step hf un ha ha' (ui _ _) (List.append_cancel_left h)
  obtain ⟨e4, h⟩ := option_step hf un hb hb' (ui _ _) (List.append_cancel_left h)
  obtain ⟨e5, h⟩ := option_step hf un hc hc' (ui _ _) (List.append_cancel_left h)
  obtain ⟨e6, h⟩ := option_step hf (i32_paren hf) hd hd'
    (fun z y t u ez ey hz hy e => i32_inj hf (hi z ez) (hj y ey) hz hy e) (List.append_cancel_left h)
  obtain ⟨e7, h⟩ := split_at '_' _ _ _ _ (nf _) (nf _) (List.append_cancel_left h)
  have h := List.append_cancel_right (List.append_cancel_left h)
  have hop : i.opc = j.opc := by
    apply debug_opcode_inj
    rw [debug_opcode, debug_opcode, string_ext e1, string_ext e2]
  have hfm : i.instFormat = j.instFormat := by
    apply debug_format_inj
    rw [debug_format, debug_format, string_ext (List.append_cancel_right e7)]
  have hcm : i.isCompressed = j.isCompressed := by
    have hb := bool_ink hf hp hx
    rw [h, bool_ink hf hp hx'] at hb
    revert hb
    cases i.isCompressed <;> cases j.isCompressed <;> simp
  cases i; cases j
  simp only [Instruction.mk.injEq]
  exact ⟨hop, e3, e4, e5, e6, hfm, hcm⟩

/-- Precision 0 hides the truth value. -/
theorem C71_precision_zero (f : Flags) (hp : f.precision = some 0) (i : Instruction) :
    ({ i with isCompressed := true } : Instruction).debugWith f =
      ({ i with isCompressed := false } : Instruction).debugWith f := by
  have h : debugBoolWith f true = debugBoolWith f false := by
    simp only [debugBoolWith, Flags.pad, hp, List.take_zero]
  simp only [Instruction.debugWith, h]

/-- A digit as fill character makes numbers ambiguous: `{:1>2?}` shows the registers 1 and 11 alike. -/
example : debugUsizeWith { fill := '1', align := some .Right, width := some 2 } 1 =
    debugUsizeWith { fill := '1', align := some .Right, width := some 2 } 11 := by decide

/-- The hypotheses of `C71_injective` are met by the default flags and by many others. -/
example : plainFill ' ' ∧ plainFill '*' ∧ plainFill '\n' := by
  refine ⟨⟨?_, ?_⟩, ⟨?_, ?_⟩, ⟨?_, ?_⟩⟩ <;> decide

example : debugI32With { width := some 6, zero := true } (-5) = "-00005" := by decide
example : debugI32With { width := some 6, align := some .Center, fill := '*' } (-5) = "**-5**" := by decide
example : debugI32With { alternate := true, hex := some .Upper } (-5) = "0xFFFFFFFB" := by decide
example : debugBoolWith { width := some 6, zero := true, precision := some 3 } true = "tru   " := by decide

set_option maxRecDepth 8000 in
example : (Instruction.mk (.BaseI .ADDI) (some 1) (some 0) none (some (-276)) .IFormat false).debugWith
    { width := some 3, plus := true } =
    "Instruction { opc: BaseI(ADDI), rd: Some( +1), rs1: Some( +0), rs2: None, imm: Some(-276), \
     inst_format: IFormat, is_compressed: false }" := by decide

end Raki
