import Verif.Model.Derive
import Verif.Spec.DebugText
import Verif.Lemmas.TextInj
import Verif.Model.Lib
/-!
# Derived equality and debug text (C55)
-/

namespace Raki

open Spec

/-! ## Equality -/

/-- C55.  `==` on the errors is equality. -/
theorem C55_eq_error (a b : DecodingError) : a.eq b = true ↔ a = b := by
  cases a <;> cases b <;> decide

/-- C55.  `==` on the formats is equality. -/
theorem C55_eq_format (a b : InstFormat) : a.eq b = true ↔ a = b := by
  constructor
  · intro h
    have h : a.discr = b.discr := by simpa [InstFormat.eq] using h
    cases a <;> cases b <;> first | rfl | exact absurd h (by decide)
  · rintro rfl; simp [InstFormat.eq]

theorem eq_baseI (a b : BaseIOpcode) : a.eq b = true ↔ a = b := by
  have inv : ∀ a : BaseIOpcode, a.discr = a.ctorIdx := by intro a; cases a <;> rfl
  have back : ∀ a : BaseIOpcode, BaseIOpcode.ofNat a.ctorIdx = a := by intro a; cases a <;> rfl
  constructor
  · intro h
    have h : a.discr = b.discr := by simpa [BaseIOpcode.eq] using h
    rw [inv, inv] at h
    rw [← back a, h, back]
  · rintro rfl; simp [BaseIOpcode.eq]

theorem eq_m (a b : MOpcode) : a.eq b = true ↔ a = b := by
  have inv : ∀ a : MOpcode, a.discr = a.ctorIdx := by intro a; cases a <;> rfl
  have back : ∀ a : MOpcode, MOpcode.ofNat a.ctorIdx = a := by intro a; cases a <;> rfl
  constructor
  · intro h
    have h : a.discr = b.discr := by simpa [MOpcode.eq] using h
    rw [inv, inv] at h
    rw [← back a, h, back]
  · rintro rfl; simp [MOpcode.eq]

theorem eq_a (a b : AOpcode) : a.eq b = true ↔ a = b := by
  have inv : ∀ a : AOpcode, a.discr = a.ctorIdx := by intro a; cases a <;> rfl
  have back : ∀ a : AOpcode, AOpcode.ofNat a.ctorIdx = a := by intro a; cases a <;> rfl
  constructor
  · intro h
    have h : a.discr = b.discr := by simpa [AOpcode.eq] using h
    rw [inv, inv] at h
    rw [← back a, h, back]
  · rintro rfl; simp [AOpcode.eq]

theorem eq_c (a b : COpcode) : a.eq b = true ↔ a = b := by
  have inv : ∀ a : COpcode, a.discr = a.ctorIdx := by intro a; cases a <;> rfl
  have back : ∀ a : COpcode, COpcode.ofNat a.ctorIdx = a := by intro a; cases a <;> rfl
  constructor
  · intro h
    have h : a.discr = b.discr := by simpa [COpcode.eq] using h
    rw [inv, inv] at h
    rw [← back a, h, back]
  · rintro rfl; simp [COpcode.eq]

theorem eq_zicsr (a b : ZicsrOpcode) : a.eq b = true ↔ a = b := by
  have inv : ∀ a : ZicsrOpcode, a.discr = a.ctorIdx := by intro a; cases a <;> rfl
  have back : ∀ a : ZicsrOpcode, ZicsrOpcode.ofNat a.ctorIdx = a := by intro a; cases a <;> rfl
  constructor
  · intro h
    have h : a.discr = b.discr := by simpa [ZicsrOpcode.eq] using h
    rw [inv, inv] at h
    rw [← back a, h, back]
  · rintro rfl; simp [ZicsrOpcode.eq]

theorem eq_zicfiss (a b : ZicfissOpcode) : a.eq b = true ↔ a = b := by
  have inv : ∀ a : ZicfissOpcode, a.discr = a.ctorIdx := by intro a; cases a <;> rfl
  have back : ∀ a : ZicfissOpcode, ZicfissOpcode.ofNat a.ctorIdx = a := by intro a; cases a <;> rfl
  constructor
  · intro h
    have h : a.discr = b.discr := by simpa [ZicfissOpcode.eq] using h
    rw [inv, inv] at h
    rw [← back a, h, back]
  · rintro rfl; simp [ZicfissOpcode.eq]

theorem eq_zicntr (a b : ZicntrOpcode) : a.eq b = true ↔ a = b := by
  have inv : ∀ a : ZicntrOpcode, a.discr = a.ctorIdx := by intro a; cases a <;> rfl
  have back : ∀ a : ZicntrOpcode, ZicntrOpcode.ofNat a.ctorIdx = a := by intro a; cases a <;> rfl
  constructor
  · intro h
    have h : a.discr = b.discr := by simpa [ZicntrOpcode.eq] using h
    rw [inv, inv] at h
    rw [← back a, h, back]
  · rintro rfl; simp [ZicntrOpcode.eq]

theorem eq_priv (a b : PrivOpcode) : a.eq b = true ↔ a = b := by
  have inv : ∀ a : PrivOpcode, a.discr = a.ctorIdx := by intro a; cases a <;> rfl
  have back : ∀ a : PrivOpcode, PrivOpcode.ofNat a.ctorIdx = a := by intro a; cases a <;> rfl
  constructor
  · intro h
    have h : a.discr = b.discr := by simpa [PrivOpcode.eq] using h
    rw [inv, inv] at h
    rw [← back a, h, back]
  · rintro rfl; simp [PrivOpcode.eq]

theorem eq_zifencei (a b : ZifenceiOpcode) : a.eq b = true ↔ a = b := by
  cases a; cases b; decide

theorem eq_zicboz (a b : ZicbozOpcode) : a.eq b = true ↔ a = b := by
  cases a; cases b; decide

/-- C55.  `==` on the opcodes is equality. -/
theorem C55_eq_opcode (a b : OpcodeKind) : a.eq b = true ↔ a = b := by
  cases a <;> cases b <;>
    simp [OpcodeKind.eq, eq_baseI, eq_m, eq_a, eq_c, eq_zicsr, eq_zicfiss, eq_zicntr, eq_priv, eq_zifencei,
      eq_zicboz]

theorem eqOption_iff {α : Type} [BEq α] [LawfulBEq α] (a b : Option α) : eqOption a b = true ↔ a = b := by
  cases a <;> cases b <;> simp [eqOption]

/-- C55.  `==` on instructions is equality of all fields. -/
theorem C55_eq_instruction (a b : Instruction) : a.eq b = true ↔ a = b := by
  cases a; cases b
  simp [Instruction.eq, C55_eq_opcode, C55_eq_format, eqOption_iff, and_assoc]

example : (Instruction.mk (.BaseI .ADDI) (some 1) (some 0) none (some 5) .IFormat false).eq
    ⟨.BaseI .ADDI, some 1, some 0, none, some 6, .IFormat, false⟩ = false := rfl
example : (Instruction.mk (.BaseI .ADDI) (some 1) (some 0) none (some 5) .IFormat false).eq
    ⟨.BaseI .ADDI, some 1, some 0, none, some 5, .IFormat, false⟩ = true := rfl

/-! ## Debug text -/

theorem debug_opcode (op : OpcodeKind) : op.debug = extensionName op ++ "(" ++ opcodeName op ++ ")" := by
  rcases op with o | o | o | o | o | o | o | o | o | o
  all_goals cases o
  all_goals decide

theorem debug_format (f : InstFormat) : f.debug = formatName f := by cases f <;> rfl

theorem debug_bool (b : Bool) : debugBool b = if b then "true" else "false" := by cases b <;> rfl

theorem debug_int (o : Option Int) : isOption (debugOption toString o) o := by
  cases o with
  | none => rfl
  | some z => exact ⟨_, fmtI32_isDecimal z, rfl⟩

theorem debug_nat (o : Option Nat) : isOption (debugOption toString o) (o.map Int.ofNat) := by
  cases o with
  | none => rfl
  | some n => exact ⟨_, fmtUsize_isDecimal n, rfl⟩

theorem isOption_unique {s t : String} {o : Option Int} (h : isOption s o) (h' : isOption t o) : s = t := by
  cases o with
  | none => exact h.trans h'.symm
  | some z =>
      obtain ⟨d, h, rfl⟩ := h
      obtain ⟨e, h', rfl⟩ := h'
      rw [decimal_unique h h']

theorem isOption_inj {s : String} {o p : Option Int} (h : isOption s o) (h' : isOption s p) : o = p := by
  have ne : ∀ d : String, "Some(" ++ d ++ ")" ≠ "None" := by
    intro d e
    have := congrArg (fun s => s.toList.head?) e
    simp [String.toList_append] at this
  cases o <;> cases p
  · rfl
  · obtain ⟨d, -, e⟩ := h'
    exact absurd (e.symm.trans h) (ne d)
  · obtain ⟨d, -, e⟩ := h
    exact absurd (e.symm.trans h') (ne d)
  · obtain ⟨d, hd, e⟩ := h
    obtain ⟨d', hd', e'⟩ := h'
    have h2 := congrArg String.toList (e.symm.trans e')
    simp only [String.toList_append, List.append_assoc, List.append_cancel_left_eq,
      List.append_cancel_right_eq] at h2
    rw [decimal_inj hd (string_ext h2 ▸ hd')]

theorem isOption_no_comma {s : String} {o : Option Int} (h : isOption s o) : ∀ c ∈ s.toList, c ≠ ',' := by
  cases o with
  | none => rw [show s = "None" from h]; decide
  | some z =>
      obtain ⟨d, hd, rfl⟩ := h
      intro c hc
      simp only [String.toList_append, List.mem_append] at hc
      rcases hc with (hc | hc) | hc
      · revert c; decide
      · exact (decimal_chars hd c hc).1
      · revert c; decide

/-- C55.  What `{:?}` writes for an instruction, whatever its fields. -/
theorem C55_debug_text (i : Instruction) (s : String) : i.debug = s ↔ isDebugText i s := by
  have key : isDebugText i i.debug :=
    ⟨_, _, _, _, debug_nat _, debug_nat _, debug_nat _, debug_int _, by
      have e : "), rd: " = ")" ++ ", rd: " := by decide
      unfold Instruction.debug
      rw [debug_opcode, debug_format, debug_bool, e]
      simp only [String.append_assoc]⟩
  constructor
  · rintro rfl; exact key
  · intro h
    obtain ⟨a, b, c, d, ha, hb, hc, hd, e⟩ := key
    obtain ⟨a', b', c', d', ha', hb', hc', hd', e'⟩ := h
    rw [e, e', isOption_unique ha ha', isOption_unique hb hb', isOption_unique hc hc',
      isOption_unique hd hd']

theorem no_comma_opcode (op : OpcodeKind) : ∀ c ∈ op.debug.toList, c ≠ ',' := by
  rcases op with o | o | o | o | o | o | o | o | o | o
  all_goals cases o
  all_goals decide

theorem no_comma_format (f : InstFormat) : ∀ c ∈ f.debug.toList, c ≠ ',' := by cases f <;> decide

theorem debug_format_inj (f g : InstFormat) (h : f.debug = g.debug) : f = g := by
  have : ∀ f : InstFormat, ([.RFormat, .RShamtFormat, .IFormat, .SFormat, .BFormat, .UFormat, .JFormat,
      .CrFormat, .CiFormat, .CssFormat, .CiwFormat, .ClFormat, .CsFormat, .CaFormat, .CbFormat, .CjFormat,
      .CsrFormat, .CsrUiFormat, .MFormat, .AFormat, .ALrFormat, .NoOperand, .OnlyRd, .OnlyRs1,
      .OnlyRs2] : List InstFormat).find? (fun g => g.debug == f.debug) = some f := by
    intro f; cases f <;> rfl
  have hf := this f
  rw [h, this g] at hf
  injection hf with hf
  exact hf.symm

/-- All opcodes. -/
def allOpcodes : List OpcodeKind :=
  (List.range 51).map (fun n => .BaseI (.ofNat n)) ++ (List.range 13).map (fun n => .M (.ofNat n)) ++
  (List.range 22).map (fun n => .A (.ofNat n)) ++ (List.range 34).map (fun n => .C (.ofNat n)) ++
  [.Zifencei .FENCE] ++ [.Zicboz .CBO_ZERO] ++
  (List.range 6).map (fun n => .Zicsr (.ofNat n)) ++ (List.range 7).map (fun n => .Zicfiss (.ofNat n)) ++
  (List.range 6).map (fun n => .Zicntr (.ofNat n)) ++ (List.range 4).map (fun n => .Priv (.ofNat n))

theorem debug_opcode_inj (a b : OpcodeKind) (h : a.debug = b.debug) : a = b := by
  have this : ∀ op, allOpcodes.find? (fun g => g.debug == op.debug) = some op := by
    intro op
    rcases op with o | o | o | o | o | o | o | o | o | o
    all_goals cases o
    all_goals rfl
  have hf := this a
  rw [h, this b] at hf
  injection hf with hf
  exact hf.symm

theorem debug_bool_inj (a b : Bool) (h : debugBool a = debugBool b) : a = b := by
  cases a <;> cases b <;> first | rfl | exact absurd h (by decide)

/-- A piece without commas in front of a separator that begins with one. -/
theorem piece_inj (q : List Char) (x y : String) (r t : List Char) (hx : ∀ c ∈ x.toList, c ≠ ',')
    (hy : ∀ c ∈ y.toList, c ≠ ',') (h : x.toList ++ (',' :: q ++ r) = y.toList ++ (',' :: q ++ t)) :
    x = y ∧ r = t := by
  obtain ⟨h1, h2⟩ := split_at ',' _ _ _ _ hx hy h
  exact ⟨string_ext h1, List.append_cancel_left h2⟩

/-- C55.  Two instruction values with the same debug text are the same value. -/
theorem C55_debug_injective (i j : Instruction) (h : i.debug = j.debug) : i = j := by
  have h := congrArg String.toList h
  unfold Instruction.debug at h
  simp only [String.toList_append, List.append_assoc] at h
  have h := List.append_cancel_left h
  have s1 : (", rd: ").toList = ',' :: (" rd: ").toList := by decide
  have s2 : (", rs1: ").toList = ',' :: (" rs1: ").toList := by decide
  have s3 : (", rs2: ").toList = ',' :: (" rs2: ").toList := by decide
  have s4 : (", imm: ").toList = ',' :: (" imm: ").toList := by decide
  have s5 : (", inst_format: ").toList = ',' :: (" inst_format: ").toList := by decide
  have s6 : (", is_compressed: ").toList = ',' :: (" is_compressed: ").toList := by decide
  rw [s1, s2, s3, s4, s5, s6] at h
  have no := fun o => isOption_no_comma (debug_nat o)
  have no' := fun o => isOption_no_comma (debug_int o)
  obtain ⟨e1, h⟩ := piece_inj _ _ _ _ _ (no_comma_opcode _) (no_comma_opcode _) h
  obtain ⟨e2, h⟩ := piece_inj _ _ _ _ _ (no _) (no _) h
  obtain ⟨e3, h⟩ := piece_inj _ _ _ _ _ (no _) (no _) h
  obtain ⟨e4, h⟩ := piece_inj _ _ _ _ _ (no _) (no _) h
  obtain ⟨e5, h⟩ := piece_inj _ _ _ _ _ (no' _) (no' _) h
  obtain ⟨e6, h⟩ := piece_inj _ _ _ _ _ (no_comma_format _) (no_comma_format _) h
  have h := string_ext (List.append_cancel_right h)
  have nat : ∀ o p : Option Nat, (debugOption toString o) = debugOption toString p → o = p := by
    intro o p e
    have := isOption_inj (debug_nat o) (e ▸ debug_nat p)
    cases o <;> cases p
    · rfl
    · cases this
    · cases this
    · injection this with this; rw [Int.ofNat.inj this]
  have e5' := isOption_inj (debug_int i.imm) (e5 ▸ debug_int j.imm)
  cases i; cases j
  simp only [Instruction.mk.injEq]
  exact ⟨debug_opcode_inj _ _ e1, nat _ _ e2, nat _ _ e3, nat _ _ e4, e5', debug_format_inj _ _ e6,
    debug_bool_inj _ _ h⟩

/-- C55.  Errors have distinct debug texts. -/
theorem C55_debug_error (a b : DecodingError) (h : a.debug = b.debug) : a = b := by
  revert h; cases a <;> cases b <;> decide

/-- C55.  Comparing instructions with `==` and comparing their debug texts is the same. -/
theorem C55_eq_iff_debug (i j : Instruction) : i.eq j = true ↔ i.debug = j.debug :=
  (C55_eq_instruction i j).trans ⟨fun h => h ▸ rfl, C55_debug_injective i j⟩

set_option maxRecDepth 4000 in
example : (Instruction.mk (.BaseI .ADDI) (some 1) (some 0) none (some (-276)) .IFormat false).debug =
    "Instruction { opc: BaseI(ADDI), rd: Some(1), rs1: Some(0), rs2: None, imm: Some(-276), \
     inst_format: IFormat, is_compressed: false }" := by decide
set_option maxRecDepth 4000 in
example : (Instruction.mk (.Zicfiss .C_SSPUSH) none (some 1) none none .NoOperand true).debug =
    "Instruction { opc: Zicfiss(C_SSPUSH), rd: None, rs1: Some(1), rs2: None, imm: None, \
     inst_format: NoOperand, is_compressed: true }" := by decide

end Raki
