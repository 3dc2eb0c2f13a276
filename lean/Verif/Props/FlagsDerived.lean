import Verif.Props.Derived
import Verif.Props.Flags
/-!
# Debug text under formatter flags, from the declarations

`Source.debugValWith` says what the derived `Debug` does with the flags for any declared type.
-/

set_option linter.constructorNameAsVariable false

namespace Raki

open Source

theorem with_variantOf (f : Flags) (t c : Source.Id) (v : Val) : debugValWith f (.variantOf t c v) =
    if f.alternate then prettyTuple1 c.text (debugValWith f v) else c.text ++ "(" ++ debugValWith f v ++ ")" := by
  simp only [debugValWith]

theorem with_variant (f : Flags) (t c : Source.Id) : debugValWith f (.variant t c) = c.text := by
  simp only [debugValWith]

theorem with_plain {f : Flags} {v : Val} {t : Source.Id} (h : ∃ c, v = .variant t c) :
    debugValWith f v = debugVal v := by
  obtain ⟨c, rfl⟩ := h
  simp only [debugValWith, debugVal]

/-- C71.  Flags do not change the text of an error or a format. -/
theorem C71_names (f : Flags) (e : DecodingError) (x : InstFormat) :
    debugValWith f (emb e) = e.debug ∧ debugValWith f (emb x) = x.debug := by
  constructor
  · rw [with_plain (t := .DecodingError) (by cases e <;> exact ⟨_, rfl⟩), C68_debug_error]
  · rw [with_plain (t := .InstFormat) (by cases x <;> exact ⟨_, rfl⟩), C68_debug_format]

theorem with_opcode (f : Flags) (op : OpcodeKind) : debugValWith f (emb op) =
    if f.alternate then prettyVal (emb op) else debugVal (emb op) := by
  have key : ∀ (t c u : Source.Id) (v : Val), (∃ d, v = .variant u d) → debugValWith f (.variantOf t c v) =
      if f.alternate then prettyVal (.variantOf t c v) else debugVal (.variantOf t c v) := by
    intro t c u v h
    rw [with_variantOf, prettyVal_variantOf, debugVal_variantOf, with_plain h, isVariant_pretty h]
  cases op with
  | BaseI o => exact key _ _ _ _ (plain_baseI o)
  | M o => exact key _ _ _ _ (plain_m o)
  | A o => exact key _ _ _ _ (plain_a o)
  | C o => exact key _ _ _ _ (plain_c o)
  | Zifencei o => exact key _ _ _ _ (plain_zifencei o)
  | Zicboz o => exact key _ _ _ _ (plain_zicboz o)
  | Zicsr o => exact key _ _ _ _ (plain_zicsr o)
  | Zicfiss o => exact key _ _ _ _ (plain_zicfiss o)
  | Zicntr o => exact key _ _ _ _ (plain_zicntr o)
  | Priv o => exact key _ _ _ _ (plain_priv o)

/-- C71.  Of the flags only `#` changes the text of an opcode. -/
theorem C71_opcode (f : Flags) (op : OpcodeKind) :
    debugValWith f (emb op) = (if f.alternate then op.debugPretty else op.debug) ∧
    op.debugWith f = (if f.alternate then op.debugPretty else op.debug) := by
  rw [with_opcode, C68_pretty_opcode, C68_debug_opcode]
  exact ⟨rfl, rfl⟩

theorem with_option_nat (f : Flags) (o : Option Nat) :
    debugValWith f (emb o) = debugOptionWith f (debugUsizeWith f) o := by
  unfold debugOptionWith
  cases o with
  | none => exact (with_variant f _ _).trans (by cases f.alternate <;> rfl)
  | some n =>
    refine (with_variantOf _ _ _ _).trans ?_
    have h : debugValWith f (.usize n) = debugUsizeWith f n := by simp only [debugValWith]
    have h : debugValWith f (emb n) = debugUsizeWith f n := h
    rw [h, prettyOption, debugOption]
    generalize debugUsizeWith f n = s
    cases f.alternate
    · exact tag rfl
    · rfl

theorem with_option_int (f : Flags) (o : Option Int) :
    debugValWith f (emb o) = debugOptionWith f (debugI32With f) o := by
  unfold debugOptionWith
  cases o with
  | none => exact (with_variant f _ _).trans (by cases f.alternate <;> rfl)
  | some n =>
    refine (with_variantOf _ _ _ _).trans ?_
    have h : debugValWith f (.i32 n) = debugI32With f n := by simp only [debugValWith]
    have h : debugValWith f (emb n) = debugI32With f n := h
    rw [h, prettyOption, debugOption]
    generalize debugI32With f n = s
    cases f.alternate
    · exact tag rfl
    · rfl

theorem plain_seven (a b c d e f g : String) :
    plainStruct "Instruction" [("opc", a), ("rd", b), ("rs1", c), ("rs2", d), ("imm", e), ("inst_format", f),
      ("is_compressed", g)] =
    "Instruction { opc: " ++ a ++ ", rd: " ++ b ++ ", rs1: " ++ c ++ ", rs2: " ++ d ++ ", imm: " ++ e ++
      ", inst_format: " ++ f ++ ", is_compressed: " ++ g ++ " }" := by
  rw [← joined]
  simp only [plainStruct, plainFields]

/-- C71.  The derived `Debug` of an instruction under flags follows its declaration. -/
theorem C71_declared (f : Flags) (i : Instruction) : debugValWith f (emb i) = i.debugWith f := by
  have hb : debugValWith f (.bool i.isCompressed) = debugBoolWith f i.isCompressed := by simp only [debugValWith]
  have hs : ∀ t fs, debugValWith f (.struct t fs) =
      if f.alternate then prettyStruct t.text (debugFieldsWith f fs)
      else plainStruct t.text (debugFieldsWith f fs) := by intros; simp only [debugValWith]
  rw [emb_instruction, hs]
  simp only [debugFieldsWith, (C71_opcode f i.opc).1, with_option_nat, with_option_int,
    (C71_names f .InvalidOpcode i.instFormat).2, hb]
  rw [text_instruction, text_opc, text_rd, text_rs1, text_rs2, text_imm, text_format, text_compressed,
    plain_seven, Instruction.debugWith, OpcodeKind.debugWith]

end Raki
