import Verif.Model.DebugPretty
import Verif.Props.Derive
import Verif.Props.Programs
/-!
# Indented debug text (C66)
-/

namespace Raki

open Spec

theorem pad_newline (nl : Bool) (xs ys : List Char) (h : ∀ c ∈ xs, c ≠ '\n') :
    padAdapter nl (xs ++ '\n' :: ys) =
      (if nl then [' ', ' ', ' ', ' '] else []) ++ xs ++ '\n' :: padAdapter true ys := by
  induction xs generalizing nl with
  | nil => simp [padAdapter]
  | cons c xs ih =>
    have hc : (c == '\n') = false := by simpa using h c (by simp)
    simp only [List.cons_append, padAdapter, hc, ih false fun d hd => h d (by simp [hd])]
    simp

theorem field_one (s : String) (h : ∀ c ∈ s.toList, c ≠ '\n') : prettyField s = "    " ++ s ++ ",\n" := by
  apply string_ext
  have e : (s ++ ",\n").toList = (s.toList ++ [',']) ++ '\n' :: [] := by simp [String.toList_append]
  rw [prettyField, e, pad_newline]
  · simp [padAdapter, String.toList_append]
  · intro c hc
    simp only [List.mem_append, List.mem_singleton] at hc
    rcases hc with hc | rfl
    · exact h c hc
    · decide

theorem field_tuple (k n v : String) (hk : ∀ c ∈ k.toList, c ≠ '\n') (hn : ∀ c ∈ n.toList, c ≠ '\n')
    (hv : ∀ c ∈ v.toList, c ≠ '\n') :
    prettyField (k ++ ": " ++ prettyTuple1 n v) =
      "    " ++ k ++ ": " ++ n ++ "(\n        " ++ v ++ ",\n    ),\n" := by
  apply string_ext
  have e : (k ++ ": " ++ prettyTuple1 n v ++ ",\n").toList = (k.toList ++ [':', ' '] ++ n.toList ++ ['('])
      ++ '\n' :: ((' ' :: ' ' :: ' ' :: ' ' :: v.toList ++ [',']) ++ '\n' :: ([')', ','] ++ '\n' :: [])) := by
    rw [prettyTuple1, field_one v hv]
    simp [String.toList_append]
  rw [prettyField, e, pad_newline, pad_newline, pad_newline]
  · simp [padAdapter, String.toList_append]
  · decide
  · intro c hc
    simp only [List.mem_append, List.mem_cons, List.cons_append, List.not_mem_nil, or_false] at hc
    rcases hc with rfl | rfl | rfl | rfl | hc | rfl
    all_goals first | exact hv c hc | decide
  · intro c hc
    simp only [List.mem_append, List.mem_cons, List.not_mem_nil, or_false] at hc
    rcases hc with ((hc | rfl | rfl) | hc) | rfl
    all_goals first | exact hk c hc | exact hn c hc | decide

/-! ## The text -/

/-- Terminated lines. -/
def ended (ls : List String) : String := ls.foldr (fun l r => l ++ "\n" ++ r) ""

theorem ended_append (a b : List String) : ended (a ++ b) = ended a ++ ended b := by
  induction a with
  | nil => simp [ended]
  | cons l a ih =>
    show l ++ "\n" ++ ended (a ++ b) = l ++ "\n" ++ ended a ++ ended b
    rw [ih]; simp only [String.append_assoc]

theorem lines_snoc (ls : List String) (l : String) : lines (ls ++ [l]) = ended ls ++ l := by
  induction ls with
  | nil => simp [lines, ended]
  | cons a ls ih =>
    have e : lines (a :: (ls ++ [l])) = a ++ "\n" ++ lines (ls ++ [l]) := by
      cases ls <;> rfl
    rw [List.cons_append, e, ih]
    show a ++ "\n" ++ (ended ls ++ l) = a ++ "\n" ++ ended ls ++ l
    simp only [String.append_assoc]

theorem printable_newline {s : String} (h : printable s) : ∀ c ∈ s.toList, c ≠ '\n' := by
  intro c hc e
  have := (h c hc).1
  rw [e] at this
  exact absurd this (by decide)

theorem option_lines {α : Type} [ToString α] (k : String) (hk : ∀ c ∈ k.toList, c ≠ '\n') (o : Option α)
    (f : α → Int) (hd : ∀ a, isDecimal (toString a) (f a)) :
    ∃ ls, isOptionLines k ls (o.map f) ∧ prettyField (k ++ ": " ++ prettyOption toString o) = ended ls := by
  cases o with
  | none =>
    refine ⟨_, rfl, ?_⟩
    rw [field_one]
    · simp only [prettyOption, ended, List.foldr_cons, List.foldr_nil, String.append_assoc]
      rfl
    · intro c hc
      simp only [String.toList_append, List.mem_append, prettyOption] at hc
      rcases hc with (hc | hc) | hc
      · exact hk c hc
      · revert c; decide
      · revert c; decide
  | some a =>
    refine ⟨_, ⟨toString a, hd a, rfl⟩, ?_⟩
    rw [prettyOption, field_tuple k "Some" _ hk (by decide) (printable_newline (printable_decimal (hd a)))]
    apply string_ext
    simp [ended, String.toList_append]

theorem pretty_opcode (op : OpcodeKind) :
    op.debugPretty = prettyTuple1 (extensionName op) (opcodeName op) := by
  have key : ∀ a b c : String, b = c → prettyTuple1 a b = prettyTuple1 a c := fun _ _ _ h => h ▸ rfl
  rcases op with o | o | o | o | o | o | o | o | o | o
  all_goals refine key _ _ _ ?_
  all_goals cases o
  all_goals decide

theorem extension_newline (op : OpcodeKind) : ∀ c ∈ (extensionName op).toList, c ≠ '\n' := by
  cases op <;> (simp only [extensionName]; decide)

theorem opcode_newline (op : OpcodeKind) : ∀ c ∈ (opcodeName op).toList, c ≠ '\n' := by
  rcases op with o | o | o | o | o | o | o | o | o | o
  all_goals cases o
  all_goals decide

theorem format_newline (f : InstFormat) : ∀ c ∈ (formatName f).toList, c ≠ '\n' := by cases f <;> decide

theorem optionLines_unique {k : String} {a b : List String} {o : Option Int} (h : isOptionLines k a o)
    (h' : isOptionLines k b o) : a = b := by
  cases o with
  | none => exact h.trans h'.symm
  | some z =>
      obtain ⟨d, h, rfl⟩ := h
      obtain ⟨e, h', rfl⟩ := h'
      rw [decimal_unique h h']

theorem pretty_is_text (i : Instruction) : isPrettyText i i.debugPretty := by
  obtain ⟨a, ha, ea⟩ := option_lines "rd" (by decide) i.rd Int.ofNat fmtUsize_isDecimal
  obtain ⟨b, hb, eb⟩ := option_lines "rs1" (by decide) i.rs1 Int.ofNat fmtUsize_isDecimal
  obtain ⟨c, hc, ec⟩ := option_lines "rs2" (by decide) i.rs2 Int.ofNat fmtUsize_isDecimal
  obtain ⟨d, hd, ed⟩ := option_lines "imm" (by decide) i.imm (fun z => z) fmtI32_isDecimal
  refine ⟨a, b, c, d, ha, hb, hc, by simpa using hd, ?_⟩
  have hf : ∀ x ∈ ("inst_format" ++ ": " ++ i.instFormat.debug).toList, x ≠ '\n' := by
    intro x hx
    simp only [String.toList_append, List.mem_append] at hx
    rcases hx with (hx | hx) | hx
    · revert x; decide
    · revert x; decide
    · rw [debug_format] at hx; exact format_newline _ _ hx
  have hb : ∀ x ∈ ("is_compressed" ++ ": " ++ debugBool i.isCompressed).toList, x ≠ '\n' := by
    generalize i.isCompressed = b
    cases b <;> decide
  rw [Instruction.debugPretty, prettyStruct]
  simp only [List.foldr_cons, List.foldr_nil]
  rw [pretty_opcode, field_tuple "opc" _ _ (by decide) (extension_newline _) (opcode_newline _), ea, eb, ec,
    ed, field_one _ hf, field_one _ hb, debug_format, debug_bool]
  have e : ∀ (p : List String) (x y z : String), p ++ a ++ b ++ c ++ d ++ [x, y, z] =
      (p ++ a ++ b ++ c ++ d ++ [x, y]) ++ [z] := by
    intros; simp
  rw [e, lines_snoc]
  simp only [ended_append]
  apply string_ext
  simp only [ended, List.foldr_cons, List.foldr_nil, String.toList_append, List.append_assoc]
  simp

/-- C66.  The indented debug text of an instruction value is the one described by the specification. -/
theorem C66_pretty_text (i : Instruction) (s : String) : i.debugPretty = s ↔ isPrettyText i s := by
  constructor
  · rintro rfl; exact pretty_is_text i
  · intro h
    obtain ⟨a, b, c, d, ha, hb, hc, hd, e⟩ := pretty_is_text i
    obtain ⟨a', b', c', d', ha', hb', hc', hd', e'⟩ := h
    rw [e, e', optionLines_unique ha ha', optionLines_unique hb hb', optionLines_unique hc hc',
      optionLines_unique hd hd']

/-! ## The text determines the value -/

theorem optionLines_step {k : String} {a b : List String} {o p : Option Int} {x y : List Char}
    (ha : isOptionLines k a o) (hb : isOptionLines k b p)
    (h : (ended a).toList ++ x = (ended b).toList ++ y) : o = p ∧ x = y := by
  cases o with
  | none =>
    cases p with
    | none =>
      rw [show a = _ from ha, show b = _ from hb] at h
      exact ⟨rfl, List.append_cancel_left h⟩
    | some z =>
      obtain ⟨d, -, rfl⟩ := hb
      rw [show a = _ from ha] at h
      simp [ended, String.toList_append] at h
  | some w =>
    obtain ⟨d, hd, rfl⟩ := ha
    cases p with
    | none =>
      rw [show b = _ from hb] at h
      simp [ended, String.toList_append] at h
    | some z =>
      obtain ⟨e, he, rfl⟩ := hb
      simp only [ended, List.foldr_cons, List.foldr_nil, String.toList_append, List.append_assoc,
        List.append_cancel_left_eq] at h
      have hc : (",").toList = [','] := rfl
      rw [hc] at h
      obtain ⟨h1, h2⟩ := split_at ',' _ _ _ _ (fun c hc => (decimal_chars hd c hc).1)
        (fun c hc => (decimal_chars he c hc).1) h
      refine ⟨?_, ?_⟩
      · rw [string_ext h1] at hd; rw [decimal_inj hd he]
      · simpa using h2

/-- C66.  Two instruction values with the same indented debug text are the same value. -/
theorem C66_pretty_injective (i j : Instruction) (h : i.debugPretty = j.debugPretty) : i = j := by
  obtain ⟨a, b, c, d, ha, hb, hc, hd, e⟩ := pretty_is_text i
  obtain ⟨a', b', c', d', ha', hb', hc', hd', e'⟩ := pretty_is_text j
  rw [e, e'] at h
  have sp : ∀ (p a b c d : List String) (x y z : String), p ++ a ++ b ++ c ++ d ++ [x, y, z] =
      (p ++ a ++ b ++ c ++ d ++ [x, y]) ++ [z] := by
    intros; simp
  rw [sp, sp, lines_snoc, lines_snoc] at h
  simp only [ended_append] at h
  have h := congrArg String.toList h
  simp only [String.toList_append, List.append_assoc] at h
  have hp : ∀ m n : String, (ended ["Instruction {", "    opc: " ++ m ++ "(", "        " ++ n ++ ",",
      "    ),"]).toList = "Instruction {\n    opc: ".toList ++ (m.toList ++ ("(\n        ".toList ++
        (n.toList ++ ",\n    ),\n".toList))) := by
    intro m n
    simp [ended, String.toList_append]
  have hq : ∀ m n : String, (ended ["    inst_format: " ++ m ++ ",", "    is_compressed: " ++ n ++ ","]).toList
      = "    inst_format: ".toList ++ (m.toList ++ (",\n    is_compressed: ".toList ++ (n.toList ++
        ",\n".toList))) := by
    intro m n
    simp [ended, String.toList_append]
  simp only [hp, hq, List.append_assoc] at h
  have h := List.append_cancel_left h
  have s1 : ("(\n        ").toList = '(' :: ("\n        ").toList := rfl
  have s2 : (",\n    ),\n").toList = ',' :: ("\n    ),\n").toList := rfl
  have s3 : (",\n    is_compressed: ").toList = ',' :: ("\n    is_compressed: ").toList := rfl
  rw [s1, s2, s3] at h
  have nx : ∀ op : OpcodeKind, ∀ c ∈ (extensionName op).toList, c ≠ '(' := by
    intro op; cases op <;> (simp only [extensionName]; decide)
  have no : ∀ op : OpcodeKind, ∀ c ∈ (opcodeName op).toList, c ≠ ',' := by
    intro op
    rcases op with o | o | o | o | o | o | o | o | o | o
    all_goals cases o
    all_goals decide
  have nf : ∀ f : InstFormat, ∀ c ∈ (formatName f).toList, c ≠ ',' := by intro f; cases f <;> decide
  obtain ⟨e1, h⟩ := split_at '(' _ _ _ _ (nx _) (nx _) h
  have h := List.append_cancel_left h
  obtain ⟨e2, h⟩ := split_at ',' _ _ _ _ (no _) (no _) h
  have h := List.append_cancel_left h
  obtain ⟨e3, h⟩ := optionLines_step ha ha' h
  obtain ⟨e4, h⟩ := optionLines_step hb hb' h
  obtain ⟨e5, h⟩ := optionLines_step hc hc' h
  obtain ⟨e6, h⟩ := optionLines_step hd hd' h
  have h := List.append_cancel_left h
  obtain ⟨e7, h⟩ := split_at ',' _ _ _ _ (nf _) (nf _) h
  have h := List.append_cancel_left h
  have h := List.append_cancel_right h
  have inj : ∀ o p : Option Nat, o.map Int.ofNat = p.map Int.ofNat → o = p := by
    intro o p h
    cases o <;> cases p
    · rfl
    · cases h
    · cases h
    · injection h with h; rw [Int.ofNat.inj h]
  have hop : i.opc = j.opc := by
    apply debug_opcode_inj
    rw [debug_opcode, debug_opcode, string_ext e1, string_ext e2]
  have hf : i.instFormat = j.instFormat := by
    apply debug_format_inj
    rw [debug_format, debug_format, string_ext e7]
  have hcm : i.isCompressed = j.isCompressed := by
    apply debug_bool_inj
    rw [debug_bool, debug_bool, string_ext h]
  cases i; cases j
  simp only [Instruction.mk.injEq]
  exact ⟨hop, inj _ _ e3, inj _ _ e4, inj _ _ e5, e6, hf, hcm⟩

/-- Not a space, line break or comma. -/
def isInk (c : Char) : Bool := c != ' ' && c != '\n' && c != ','

theorem option_ink {k t : String} {ls : List String} {o : Option Int} (h : isOptionLines k ls o)
    (h' : isOption t o) : (ended ls).toList.filter isInk = (k ++ ": " ++ t).toList.filter isInk := by
  cases o with
  | none =>
    rw [show ls = _ from h, show t = _ from h']
    simp [ended, String.toList_append, isInk]
  | some z =>
    obtain ⟨d, hd, rfl⟩ := h
    obtain ⟨e, he, rfl⟩ := h'
    rw [decimal_unique hd he]
    simp [ended, String.toList_append, isInk]

/-- C66.  The indented form and `{:?}` differ only in spaces, line breaks and commas. -/
theorem C66_same_content (i : Instruction) :
    i.debugPretty.toList.filter (fun c => c != ' ' && c != '\n' && c != ',') =
    i.debug.toList.filter (fun c => c != ' ' && c != '\n' && c != ',') := by
  show i.debugPretty.toList.filter isInk = i.debug.toList.filter isInk
  obtain ⟨a, b, c, d, ha, hb, hc, hd, e⟩ := pretty_is_text i
  obtain ⟨a', b', c', d', ha', hb', hc', hd', e'⟩ := (C55_debug_text i _).1 rfl
  rw [e, e']
  have sp : ∀ (p a b c d : List String) (x y z : String), p ++ a ++ b ++ c ++ d ++ [x, y, z] =
      (p ++ a ++ b ++ c ++ d ++ [x, y]) ++ [z] := by
    intros; simp
  rw [sp, lines_snoc]
  simp only [ended_append, String.toList_append, List.filter_append, option_ink ha ha', option_ink hb hb',
    option_ink hc hc', option_ink hd hd', List.append_assoc]
  simp [ended, String.toList_append, isInk]

set_option maxRecDepth 8000 in
example : (Instruction.mk (.BaseI .ADDI) (some 1) (some 0) none (some (-276)) .IFormat false).debugPretty =
    "Instruction {\n    opc: BaseI(\n        ADDI,\n    ),\n    rd: Some(\n        1,\n    ),\n    rs1: Some(\n\
     \x20       0,\n    ),\n    rs2: None,\n    imm: Some(\n        -276,\n    ),\n    inst_format: IFormat,\n\
     \x20   is_compressed: false,\n}" := by decide

end Raki
