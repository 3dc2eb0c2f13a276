import Verif.Source.Derived
import Verif.Source.Faithful
import Verif.Props.SourceText
import Verif.Props.Derive
import Verif.Props.DebugPretty
/-!
# Derived code, from the declarations

`Source.debugVal`, `Source.prettyVal` and `Source.eqVal` say what `#[derive(Debug, PartialEq)]` means for any
declared type.  The names they write are the spellings found in the text of the files.
-/

set_option linter.constructorNameAsVariable false

namespace Raki

open Source

/-! ## C68: the derived code of the declared types -/

/-- C68.  The text of a name is the way it is spelled in the files. -/
theorem C68_spelling (i : Source.Id) : words.find (spell (codes i.text) 0) = some (.id i) := by
  have h := mem_spelling i
  generalize i.text = s at h ⊢
  exact C67_words.2 (s, .id i) h

/-- C68.  `{:?}` of an error. -/
theorem C68_debug_error (e : DecodingError) : debugVal (emb e) = e.debug := by cases e <;> rfl

/-- C68.  `{:?}` of a format. -/
theorem C68_debug_format (f : InstFormat) : debugVal (emb f) = f.debug := by cases f <;> rfl

theorem debug_baseI (o : BaseIOpcode) : debugVal (emb o) = o.debug := by cases o <;> rfl
theorem debug_m (o : MOpcode) : debugVal (emb o) = o.debug := by cases o <;> rfl
theorem debug_a (o : AOpcode) : debugVal (emb o) = o.debug := by cases o <;> rfl
theorem debug_c (o : COpcode) : debugVal (emb o) = o.debug := by cases o <;> rfl
theorem debug_zifencei (o : ZifenceiOpcode) : debugVal (emb o) = o.debug := by cases o <;> rfl
theorem debug_zicboz (o : ZicbozOpcode) : debugVal (emb o) = o.debug := by cases o <;> rfl
theorem debug_zicsr (o : ZicsrOpcode) : debugVal (emb o) = o.debug := by cases o <;> rfl
theorem debug_zicfiss (o : ZicfissOpcode) : debugVal (emb o) = o.debug := by cases o <;> rfl
theorem debug_zicntr (o : ZicntrOpcode) : debugVal (emb o) = o.debug := by cases o <;> rfl
theorem debug_priv (o : PrivOpcode) : debugVal (emb o) = o.debug := by cases o <;> rfl

theorem debugVal_variantOf (t c : Source.Id) (v : Val) :
    debugVal (.variantOf t c v) = c.text ++ "(" ++ debugVal v ++ ")" := by simp only [debugVal]

theorem tag {k o s : String} (h : k ++ "(" = o) : k ++ "(" ++ s ++ ")" = o ++ s ++ ")" := by rw [h]

/-- C68.  `{:?}` of an opcode. -/
theorem C68_debug_opcode (op : OpcodeKind) : debugVal (emb op) = op.debug := by
  cases op with
  | BaseI o => exact (debugVal_variantOf _ _ _).trans (by rw [debug_baseI]; exact tag rfl)
  | M o => exact (debugVal_variantOf _ _ _).trans (by rw [debug_m]; exact tag rfl)
  | A o => exact (debugVal_variantOf _ _ _).trans (by rw [debug_a]; exact tag rfl)
  | C o => exact (debugVal_variantOf _ _ _).trans (by rw [debug_c]; exact tag rfl)
  | Zifencei o => exact (debugVal_variantOf _ _ _).trans (by rw [debug_zifencei]; exact tag rfl)
  | Zicboz o => exact (debugVal_variantOf _ _ _).trans (by rw [debug_zicboz]; exact tag rfl)
  | Zicsr o => exact (debugVal_variantOf _ _ _).trans (by rw [debug_zicsr]; exact tag rfl)
  | Zicfiss o => exact (debugVal_variantOf _ _ _).trans (by rw [debug_zicfiss]; exact tag rfl)
  | Zicntr o => exact (debugVal_variantOf _ _ _).trans (by rw [debug_zicntr]; exact tag rfl)
  | Priv o => exact (debugVal_variantOf _ _ _).trans (by rw [debug_priv]; exact tag rfl)

theorem debug_option_nat (o : Option Nat) : debugVal (emb o) = debugOption toString o := by
  cases o with
  | none => rfl
  | some n => exact (debugVal_variantOf _ _ _).trans (tag rfl)

theorem debug_option_int (o : Option Int) : debugVal (emb o) = debugOption toString o := by
  cases o with
  | none => rfl
  | some n => exact (debugVal_variantOf _ _ _).trans (tag rfl)

theorem debugVal_struct (t : Source.Id) (fs : List (Source.Id × Val)) :
    debugVal (.struct t fs) = t.text ++ " { " ++ debugFields fs ++ " }" := by simp only [debugVal]

theorem debugFields_one (x : Source.Id) (v : Val) : debugFields [(x, v)] = x.text ++ ": " ++ debugVal v := by
  simp only [debugFields]

theorem debugFields_cons (x y : Source.Id) (v w : Val) (fs : List (Source.Id × Val)) :
    debugFields ((x, v) :: (y, w) :: fs) = x.text ++ ": " ++ debugVal v ++ ", " ++ debugFields ((y, w) :: fs) := by
  rw [debugFields]
  intro h; cases h

theorem emb_instruction (i : Instruction) : emb i = .struct .Instruction
    [(.opc, emb i.opc), (.rd, emb i.rd), (.rs1, emb i.rs1), (.rs2, emb i.rs2), (.imm, emb i.imm),
      (.inst_format, emb i.instFormat), (.is_compressed, .bool i.isCompressed)] := rfl

theorem text_instruction : Id.text .Instruction = "Instruction" := rfl
theorem text_opc : Id.text .opc = "opc" := rfl
theorem text_rd : Id.text .rd = "rd" := rfl
theorem text_rs1 : Id.text .rs1 = "rs1" := rfl
theorem text_rs2 : Id.text .rs2 = "rs2" := rfl
theorem text_imm : Id.text .imm = "imm" := rfl
theorem text_format : Id.text .inst_format = "inst_format" := rfl
theorem text_compressed : Id.text .is_compressed = "is_compressed" := rfl

/-- The pieces of the text of a struct with the fields of an instruction, put together. -/
theorem joined (a b c d e f g : String) :
    "Instruction" ++ " { " ++ ("opc" ++ ": " ++ a ++ ", " ++ ("rd" ++ ": " ++ b ++ ", " ++ ("rs1" ++ ": " ++ c ++
      ", " ++ ("rs2" ++ ": " ++ d ++ ", " ++ ("imm" ++ ": " ++ e ++ ", " ++ ("inst_format" ++ ": " ++ f ++ ", " ++
      ("is_compressed" ++ ": " ++ g))))))) ++ " }" =
    "Instruction { opc: " ++ a ++ ", rd: " ++ b ++ ", rs1: " ++ c ++ ", rs2: " ++ d ++ ", imm: " ++ e ++
      ", inst_format: " ++ f ++ ", is_compressed: " ++ g ++ " }" := by
  have h0 : "Instruction { opc: " = "Instruction" ++ (" { " ++ ("opc" ++ ": ")) := rfl
  have h1 : ", rd: " = ", " ++ ("rd" ++ ": ") := rfl
  have h2 : ", rs1: " = ", " ++ ("rs1" ++ ": ") := rfl
  have h3 : ", rs2: " = ", " ++ ("rs2" ++ ": ") := rfl
  have h4 : ", imm: " = ", " ++ ("imm" ++ ": ") := rfl
  have h5 : ", inst_format: " = ", " ++ ("inst_format" ++ ": ") := rfl
  have h6 : ", is_compressed: " = ", " ++ ("is_compressed" ++ ": ") := rfl
  rw [h0, h1, h2, h3, h4, h5, h6]
  simp only [String.append_assoc]

/-- C68.  `{:?}` of an instruction. -/
theorem C68_debug (i : Instruction) : debugVal (emb i) = i.debug := by
  have hb : debugVal (.bool i.isCompressed) = debugBool i.isCompressed := by simp only [debugVal]
  rw [emb_instruction, debugVal_struct]
  simp only [debugFields_cons, debugFields_one, C68_debug_opcode, C68_debug_format, debug_option_nat,
    debug_option_int, hb]
  rw [text_instruction, text_opc, text_rd, text_rs1, text_rs2, text_imm, text_format, text_compressed]
  exact joined _ _ _ _ _ _ _

/-! `{:#?}` -/

theorem prettyVal_variantOf (t c : Source.Id) (v : Val) :
    prettyVal (.variantOf t c v) = prettyTuple1 c.text (prettyVal v) := by simp only [prettyVal]

theorem prettyVal_variant (t c : Source.Id) : prettyVal (.variant t c) = debugVal (.variant t c) := by
  simp only [prettyVal]

theorem pretty_option_nat (o : Option Nat) : prettyVal (emb o) = prettyOption toString o := by
  cases o with
  | none => rfl
  | some n => exact prettyVal_variantOf _ _ _

theorem pretty_option_int (o : Option Int) : prettyVal (emb o) = prettyOption toString o := by
  cases o with
  | none => rfl
  | some n => exact prettyVal_variantOf _ _ _

/-- C68.  `{:#?}` of an error and of a format is the same as `{:?}`. -/
theorem C68_pretty_plain (e : DecodingError) (f : InstFormat) :
    prettyVal (emb e) = e.debug ∧ prettyVal (emb f) = f.debug := by
  constructor
  · cases e <;> rfl
  · cases f <;> rfl

theorem isVariant_pretty {v : Val} {t : Source.Id} (h : ∃ c, v = .variant t c) : prettyVal v = debugVal v := by
  obtain ⟨c, rfl⟩ := h
  exact prettyVal_variant t c

theorem plain_baseI (o : BaseIOpcode) : ∃ c, emb o = .variant .BaseIOpcode c := by cases o <;> exact ⟨_, rfl⟩
theorem plain_m (o : MOpcode) : ∃ c, emb o = .variant .MOpcode c := by cases o <;> exact ⟨_, rfl⟩
theorem plain_a (o : AOpcode) : ∃ c, emb o = .variant .AOpcode c := by cases o <;> exact ⟨_, rfl⟩
theorem plain_c (o : COpcode) : ∃ c, emb o = .variant .COpcode c := by cases o <;> exact ⟨_, rfl⟩
theorem plain_zifencei (o : ZifenceiOpcode) : ∃ c, emb o = .variant .ZifenceiOpcode c := by cases o <;> exact ⟨_, rfl⟩
theorem plain_zicboz (o : ZicbozOpcode) : ∃ c, emb o = .variant .ZicbozOpcode c := by cases o <;> exact ⟨_, rfl⟩
theorem plain_zicsr (o : ZicsrOpcode) : ∃ c, emb o = .variant .ZicsrOpcode c := by cases o <;> exact ⟨_, rfl⟩
theorem plain_zicfiss (o : ZicfissOpcode) : ∃ c, emb o = .variant .ZicfissOpcode c := by cases o <;> exact ⟨_, rfl⟩
theorem plain_zicntr (o : ZicntrOpcode) : ∃ c, emb o = .variant .ZicntrOpcode c := by cases o <;> exact ⟨_, rfl⟩
theorem plain_priv (o : PrivOpcode) : ∃ c, emb o = .variant .PrivOpcode c := by cases o <;> exact ⟨_, rfl⟩

/-- C68.  `{:#?}` of an opcode. -/
theorem C68_pretty_opcode (op : OpcodeKind) : prettyVal (emb op) = op.debugPretty := by
  cases op with
  | BaseI o => exact (prettyVal_variantOf _ _ _).trans (by rw [isVariant_pretty (plain_baseI o), debug_baseI]; rfl)
  | M o => exact (prettyVal_variantOf _ _ _).trans (by rw [isVariant_pretty (plain_m o), debug_m]; rfl)
  | A o => exact (prettyVal_variantOf _ _ _).trans (by rw [isVariant_pretty (plain_a o), debug_a]; rfl)
  | C o => exact (prettyVal_variantOf _ _ _).trans (by rw [isVariant_pretty (plain_c o), debug_c]; rfl)
  | Zifencei o =>
    exact (prettyVal_variantOf _ _ _).trans (by rw [isVariant_pretty (plain_zifencei o), debug_zifencei]; rfl)
  | Zicboz o =>
    exact (prettyVal_variantOf _ _ _).trans (by rw [isVariant_pretty (plain_zicboz o), debug_zicboz]; rfl)
  | Zicsr o =>
    exact (prettyVal_variantOf _ _ _).trans (by rw [isVariant_pretty (plain_zicsr o), debug_zicsr]; rfl)
  | Zicfiss o =>
    exact (prettyVal_variantOf _ _ _).trans (by rw [isVariant_pretty (plain_zicfiss o), debug_zicfiss]; rfl)
  | Zicntr o =>
    exact (prettyVal_variantOf _ _ _).trans (by rw [isVariant_pretty (plain_zicntr o), debug_zicntr]; rfl)
  | Priv o =>
    exact (prettyVal_variantOf _ _ _).trans (by rw [isVariant_pretty (plain_priv o), debug_priv]; rfl)

theorem prettyVal_struct (t : Source.Id) (fs : List (Source.Id × Val)) :
    prettyVal (.struct t fs) = prettyStruct t.text (prettyFields fs) := by simp only [prettyVal]

/-- C68.  `{:#?}` of an instruction. -/
theorem C68_pretty (i : Instruction) : prettyVal (emb i) = i.debugPretty := by
  have hb : prettyVal (.bool i.isCompressed) = debugBool i.isCompressed := by simp only [prettyVal, debugVal]
  rw [emb_instruction, prettyVal_struct]
  have hf : prettyVal (emb i.instFormat) = i.instFormat.debug := (C68_pretty_plain .InvalidOpcode _).2
  simp only [prettyFields, C68_pretty_opcode, hf, pretty_option_nat, pretty_option_int, hb, text_instruction,
    text_opc, text_rd, text_rs1, text_rs2, text_imm, text_format, text_compressed]
  rw [Instruction.debugPretty]

/-! `==` -/

theorem eqVal_plain {α : Type} [Emb α] {t : Source.Id} (hp : ∀ a : α, ∃ c, emb a = .variant t c)
    (hi : ∀ a b : α, emb a = emb b → a = b) (a b : α) : eqVal (emb a) (emb b) = true ↔ a = b := by
  obtain ⟨c, h⟩ := hp a
  obtain ⟨d, k⟩ := hp b
  rw [h, k, eqVal, beq_iff_eq]
  constructor
  · rintro rfl
    exact hi a b (by rw [h, k])
  · rintro rfl
    rw [h] at k
    injection k

theorem eqVal_variantOf (t u c d : Source.Id) (v w : Val) :
    eqVal (.variantOf t c v) (.variantOf u d w) = (c == d && eqVal v w) := by simp only [eqVal]

theorem plain_error (o : DecodingError) : ∃ c, emb o = .variant .DecodingError c := by cases o <;> exact ⟨_, rfl⟩
theorem plain_format (o : InstFormat) : ∃ c, emb o = .variant .InstFormat c := by cases o <;> exact ⟨_, rfl⟩

/-- C68.  `==` on errors. -/
theorem C68_eq_error (a b : DecodingError) : eqVal (emb a) (emb b) = true ↔ a = b :=
  eqVal_plain plain_error emb_inj_DecodingError a b

/-- C68.  `==` on formats. -/
theorem C68_eq_format (a b : InstFormat) : eqVal (emb a) (emb b) = true ↔ a = b :=
  eqVal_plain plain_format emb_inj_InstFormat a b

theorem eqVal_same (t c : Source.Id) (v w : Val) : eqVal (.variantOf t c v) (.variantOf t c w) = eqVal v w := by
  rw [eqVal_variantOf]; simp only [beq_self_eq_true, Bool.true_and]

theorem eqVal_diff (t u c d : Source.Id) (v w : Val) (h : (c == d) = false) :
    eqVal (.variantOf t c v) (.variantOf u d w) = false := by
  rw [eqVal_variantOf, h, Bool.false_and]

/-- C68.  `==` on opcodes. -/
theorem C68_eq_opcode (a b : OpcodeKind) : eqVal (emb a) (emb b) = true ↔ a = b := by
  cases a <;> cases b <;>
    first
    | (refine iff_of_false (fun h => ?_) (fun h => nomatch h)
       exact absurd ((eqVal_diff _ _ _ _ _ _ rfl).symm.trans h) Bool.false_ne_true)
    | skip
  · exact (iff_of_eq (congrArg (· = true) (eqVal_same _ _ _ _))).trans
      ((eqVal_plain plain_baseI emb_inj_BaseIOpcode _ _).trans (by simp only [OpcodeKind.BaseI.injEq]))
  · exact (iff_of_eq (congrArg (· = true) (eqVal_same _ _ _ _))).trans
      ((eqVal_plain plain_m emb_inj_MOpcode _ _).trans (by simp only [OpcodeKind.M.injEq]))
  · exact (iff_of_eq (congrArg (· = true) (eqVal_same _ _ _ _))).trans
      ((eqVal_plain plain_a emb_inj_AOpcode _ _).trans (by simp only [OpcodeKind.A.injEq]))
  · exact (iff_of_eq (congrArg (· = true) (eqVal_same _ _ _ _))).trans
      ((eqVal_plain plain_c emb_inj_COpcode _ _).trans (by simp only [OpcodeKind.C.injEq]))
  · exact (iff_of_eq (congrArg (· = true) (eqVal_same _ _ _ _))).trans
      ((eqVal_plain plain_zifencei emb_inj_ZifenceiOpcode _ _).trans (by simp only))
  · exact (iff_of_eq (congrArg (· = true) (eqVal_same _ _ _ _))).trans
      ((eqVal_plain plain_zicboz emb_inj_ZicbozOpcode _ _).trans (by simp only))
  · exact (iff_of_eq (congrArg (· = true) (eqVal_same _ _ _ _))).trans
      ((eqVal_plain plain_zicsr emb_inj_ZicsrOpcode _ _).trans (by simp only [OpcodeKind.Zicsr.injEq]))
  · exact (iff_of_eq (congrArg (· = true) (eqVal_same _ _ _ _))).trans
      ((eqVal_plain plain_zicfiss emb_inj_ZicfissOpcode _ _).trans (by simp only [OpcodeKind.Zicfiss.injEq]))
  · exact (iff_of_eq (congrArg (· = true) (eqVal_same _ _ _ _))).trans
      ((eqVal_plain plain_zicntr emb_inj_ZicntrOpcode _ _).trans (by simp only [OpcodeKind.Zicntr.injEq]))
  · exact (iff_of_eq (congrArg (· = true) (eqVal_same _ _ _ _))).trans
      ((eqVal_plain plain_priv emb_inj_PrivOpcode _ _).trans (by simp only [OpcodeKind.Priv.injEq]))

theorem eqVal_nat (a b : Nat) : eqVal (emb a) (emb b) = true ↔ a = b :=
  (iff_of_eq (congrArg (· = true) (eqVal.eq_1 a b))).trans beq_iff_eq

theorem eqVal_int (a b : Int) : eqVal (emb a) (emb b) = true ↔ a = b :=
  (iff_of_eq (congrArg (· = true) (eqVal.eq_2 a b))).trans beq_iff_eq

theorem eqVal_option {α : Type} [Emb α] (h : ∀ a b : α, eqVal (emb a) (emb b) = true ↔ a = b) (a b : Option α) :
    eqVal (emb a) (emb b) = true ↔ a = b := by
  cases a with
  | none =>
    cases b with
    | none => exact iff_of_true rfl rfl
    | some b => exact iff_of_false (fun h => by simp [emb, eqVal] at h) (fun h => nomatch h)
  | some a =>
    cases b with
    | none => exact iff_of_false (fun h => by simp [emb, eqVal] at h) (fun h => nomatch h)
    | some b =>
      exact (iff_of_eq (congrArg (· = true) (eqVal_same _ _ _ _))).trans ((h a b).trans (by simp only [Option.some.injEq]))

/-- C68.  `==` on instructions. -/
theorem C68_eq (a b : Instruction) : eqVal (emb a) (emb b) = true ↔ a = b := by
  have hb : eqVal (.bool a.isCompressed) (.bool b.isCompressed) = true ↔ a.isCompressed = b.isCompressed := by
    rw [eqVal, beq_iff_eq]
  rw [emb_instruction, emb_instruction]
  simp only [eqVal.eq_6, eqFields, Bool.and_eq_true, C68_eq_opcode, C68_eq_format, eqVal_option eqVal_nat,
    eqVal_option eqVal_int, hb, and_true]
  cases a; cases b
  simp only [Instruction.mk.injEq]

/-- C68.  The rule for `==` gives what the functions of the model give. -/
theorem C68_eq_model (e f : DecodingError) (a b : InstFormat) (o p : OpcodeKind) (i j : Instruction) :
    eqVal (emb e) (emb f) = e.eq f ∧ eqVal (emb a) (emb b) = a.eq b ∧ eqVal (emb o) (emb p) = o.eq p ∧
    eqVal (emb i) (emb j) = i.eq j := by
  refine ⟨?_, ?_, ?_, ?_⟩
  · rw [Bool.eq_iff_iff, C68_eq_error, C55_eq_error]
  · rw [Bool.eq_iff_iff, C68_eq_format, C55_eq_format]
  · rw [Bool.eq_iff_iff, C68_eq_opcode, C55_eq_opcode]
  · rw [Bool.eq_iff_iff, C68_eq, C55_eq_instruction]

/-! Results -/

theorem text_ok : Id.text .Ok = "Ok" := rfl
theorem text_err : Id.text .Err = "Err" := rfl

theorem padAdapter_inj (nl : Bool) (xs ys : List Char) (h : padAdapter nl xs = padAdapter nl ys) : xs = ys := by
  induction xs generalizing nl ys with
  | nil => cases ys with
    | nil => rfl
    | cons d ys => cases nl <;> simp [padAdapter] at h
  | cons c xs ih => cases ys with
    | nil => cases nl <;> simp [padAdapter] at h
    | cons d ys =>
      simp only [padAdapter, List.append_cancel_left_eq, List.cons.injEq] at h
      obtain ⟨rfl, h⟩ := h
      rw [ih _ _ h]

theorem prettyField_inj (s t : String) (h : prettyField s = prettyField t) : s = t := by
  have h := congrArg String.toList h
  simp only [prettyField, String.toList_ofList] at h
  have h := padAdapter_inj _ _ _ h
  simp only [String.toList_append, List.append_cancel_right_eq] at h
  exact String.toList_inj.1 h

theorem wrap_inj (p s t q : String) (h : p ++ s ++ q = p ++ t ++ q) : s = t := by
  have h := congrArg String.toList h
  simp only [String.toList_append, List.append_assoc, List.append_cancel_left_eq, List.append_cancel_right_eq] at h
  exact String.toList_inj.1 h

theorem ok_ne_err (p q s t : String) : "Ok" ++ p ++ s ++ ")" ≠ "Err" ++ q ++ t ++ ")" := by
  intro h
  have h := congrArg String.toList h
  have ho : "Ok".toList = ['O', 'k'] := rfl
  have he : "Err".toList = ['E', 'r', 'r'] := rfl
  simp [String.toList_append, ho, he] at h

/-- C68.  What `decode` and `try_from` return can be told apart by `{:?}`, by `{:#?}` and by `==`, and by
each of them as well as by any other. -/
theorem C68_results (x y : RustM Instruction) (v w : Val) (hx : outR x = .val v) (hy : outR y = .val w) :
    (debugVal v = debugVal w ↔ v = w) ∧ (prettyVal v = prettyVal w ↔ v = w) ∧ (eqVal v w = true ↔ v = w) := by
  cases x with
  | panic => cases hx
  | ok a =>
    cases y with
    | panic => cases hy
    | ok b =>
      cases hx; cases hy
      refine ⟨⟨fun h => ?_, fun h => by rw [h]⟩, ⟨fun h => ?_, fun h => by rw [h]⟩, ?_⟩
      · rw [debugVal_variantOf, debugVal_variantOf, C68_debug, C68_debug] at h
        rw [C55_debug_injective _ _ (wrap_inj _ _ _ _ h)]
      · rw [prettyVal_variantOf, prettyVal_variantOf, C68_pretty, C68_pretty] at h
        rw [C66_pretty_injective _ _ (prettyField_inj _ _ (wrap_inj _ _ _ _ h))]
      · rw [eqVal_same, C68_eq]
        exact ⟨fun h => by rw [h], fun h => by injection h with _ _ h; exact emb_inj_instruction _ _ h⟩
    | err b =>
      cases hx; cases hy
      refine ⟨iff_of_false (fun h => ?_) nofun, iff_of_false (fun h => ?_) nofun, iff_of_false (fun h => ?_) nofun⟩
      · rw [debugVal_variantOf, debugVal_variantOf, text_ok, text_err] at h
        exact ok_ne_err _ _ _ _ h
      · rw [prettyVal_variantOf, prettyVal_variantOf, text_ok, text_err] at h
        exact ok_ne_err _ _ _ _ h
      · rw [eqVal_diff _ _ _ _ _ _ rfl] at h
        cases h
  | err a =>
    cases y with
    | panic => cases hy
    | ok b =>
      cases hx; cases hy
      refine ⟨iff_of_false (fun h => ?_) nofun, iff_of_false (fun h => ?_) nofun, iff_of_false (fun h => ?_) nofun⟩
      · rw [debugVal_variantOf, debugVal_variantOf, text_ok, text_err] at h
        exact ok_ne_err _ _ _ _ h.symm
      · rw [prettyVal_variantOf, prettyVal_variantOf, text_ok, text_err] at h
        exact ok_ne_err _ _ _ _ h.symm
      · rw [eqVal_diff _ _ _ _ _ _ rfl] at h
        cases h
    | err b =>
      cases hx; cases hy
      refine ⟨⟨fun h => ?_, fun h => by rw [h]⟩, ⟨fun h => ?_, fun h => by rw [h]⟩, ?_⟩
      · rw [debugVal_variantOf, debugVal_variantOf, C68_debug_error, C68_debug_error] at h
        rw [C55_debug_error _ _ (wrap_inj _ _ _ _ h)]
      · rw [prettyVal_variantOf, prettyVal_variantOf, (C68_pretty_plain _ .RFormat).1,
          (C68_pretty_plain _ .RFormat).1] at h
        rw [C55_debug_error _ _ (prettyField_inj _ _ (wrap_inj _ _ _ _ h))]
      · rw [eqVal_same, C68_eq_error]
        exact ⟨fun h => by rw [h], fun h => by injection h with _ _ h; exact emb_inj_DecodingError _ _ h⟩

/-- C68.  The text `{:?}` gives for what a run of the functions read from the files returns. -/
theorem C68_runs (c : Crate) (hc : parse false files = some c) (md : Build) (d : Nat) (h : 6 ≤ d) :
    (∀ (w : BitVec 32) (isa : Isa), ∃ v, call c.fns md d .u32 .decode [emb w, emb isa] = .val v ∧
      ((∃ i, U32.decode w isa = .ok i ∧ debugVal v = "Ok(" ++ i.debug ++ ")") ∨
        ∃ e, U32.decode w isa = .err e ∧ debugVal v = "Err(" ++ e.debug ++ ")")) ∧
    (∀ (w : BitVec 16) (isa : Isa), ∃ v, call c.fns md d .u16 .decode [emb w, emb isa] = .val v ∧
      ((∃ i, U16.decode w isa = .ok i ∧ debugVal v = "Ok(" ++ i.debug ++ ")") ∨
        ∃ e, U16.decode w isa = .err e ∧ debugVal v = "Err(" ++ e.debug ++ ")")) := by
  have ho : ∀ i : Instruction, debugVal (.variantOf .Result .Ok (emb i)) = "Ok(" ++ i.debug ++ ")" := fun i => by
    rw [debugVal_variantOf, C68_debug, text_ok]; exact tag rfl
  have he : ∀ e : DecodingError, debugVal (.variantOf .Result .Err (emb e)) = "Err(" ++ e.debug ++ ")" := fun e => by
    rw [debugVal_variantOf, C68_debug_error, text_err]; exact tag rfl
  obtain ⟨h32, h16, -⟩ := C67_runs c hc md d h
  constructor
  · intro w isa
    rw [h32]
    rcases C01_decode32_total w isa with ⟨i, hi⟩ | ⟨e, hi⟩
    · exact ⟨_, by rw [hi]; rfl, .inl ⟨i, hi, ho i⟩⟩
    · exact ⟨_, by rw [hi]; rfl, .inr ⟨e, hi, he e⟩⟩
  · intro w isa
    rw [h16]
    rcases C02_decode16_total w isa with ⟨i, hi⟩ | ⟨e, hi⟩
    · exact ⟨_, by rw [hi]; rfl, .inl ⟨i, hi, ho i⟩⟩
    · exact ⟨_, by rw [hi]; rfl, .inr ⟨e, hi, he e⟩⟩

-- two names that the reader tells apart, spelled as in the files
example : Id.text .inst_format = "inst_format" ∧ Id.text .DecodingError = "DecodingError" := ⟨rfl, rfl⟩
-- the values have different variants and depths
example : debugVal (emb (OpcodeKind.Zicsr .CSRRW)) = "Zicsr(CSRRW)" ∧
    prettyVal (emb (OpcodeKind.Zicsr .CSRRW)) = "Zicsr(\n    CSRRW,\n)" ∧
    eqVal (emb (OpcodeKind.Zicsr .CSRRW)) (emb (OpcodeKind.Zicsr .CSRRC)) = false ∧
    eqVal (emb (some (1 : Int))) (emb (some (1 : Int))) = true := ⟨rfl, by decide, rfl, rfl⟩
-- both outcomes of `C68_results` and `C68_runs` occur
example : (∃ v, outR (U32.decode 0xEEC28293#32 .Rv64) = .val v) ∧
    ∃ v, outR (U32.decode 0#32 .Rv64) = .val v := ⟨⟨_, rfl⟩, ⟨_, rfl⟩⟩

-- src/decode.rs:76-81, the documentation of `Decode`: what `println!("{:?}", inst.decode(Isa::Rv64))` writes
example : ∃ i, U32.decode 0b1110_1110_1100_0010_1000_0010_1001_0011 .Rv64 = .ok i ∧
    debugVal (.variantOf .Result .Ok (emb i)) = "Ok(Instruction { opc: BaseI(ADDI), rd: Some(5), rs1: Some(5), " ++
      "rs2: None, imm: Some(-276), inst_format: IFormat, is_compressed: false })" := by
  refine ⟨⟨.BaseI .ADDI, some 5, some 5, none, some (-276), .IFormat, false⟩, rfl, ?_⟩
  rw [debugVal_variantOf, C68_debug]
  rfl

end Raki
