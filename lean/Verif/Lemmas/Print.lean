import Verif.Lemmas.Numerals
/-!
# What `Display` writes
-/

namespace Raki

open Spec

theorem toStr_printedName (op : OpcodeKind) : op.toStr = printedName op := by
  rcases op with o | o | o | o | o | o | o | o | o | o
  all_goals cases o
  all_goals first | rfl | decide

/-- Text of an item, for operands that are there. -/
def argStr (i : Instruction) : Arg → String
  | .rd => abiName (i.rd.getD 0)
  | .rs1 => abiName (i.rs1.getD 0)
  | .rs2 => abiName (i.rs2.getD 0)
  | .lit t => t
  | .at1 => "0(" ++ abiName (i.rs1.getD 0) ++ ")"
  | .num1 => fmtUsize (i.rs1.getD 0)
  | .hex2 => "0x" ++ hexNat (i.rs2.getD 0)
  | .num2 => fmtUsize (i.rs2.getD 0)
  | .imm => fmtI32 (i.imm.getD 0)
  | .immHex => "0x" ++ fmtI32Hex (i.imm.getD 0)
  | .immHexBare => fmtI32Hex (i.imm.getD 0)
  | .immAt2 => fmtI32 (i.imm.getD 0) ++ "(" ++ abiName (i.rs2.getD 0) ++ ")"
  | .immAtSp => fmtI32 (i.imm.getD 0) ++ "(sp)"

/-- A register operand that has a name. -/
def isNamed (o : Option Nat) : Prop := ∃ n, o = some n ∧ n < 32

/-- The operands an item needs are there. -/
def ready (i : Instruction) : Arg → Prop
  | .rd => isNamed i.rd
  | .rs1 | .at1 => isNamed i.rs1
  | .rs2 => isNamed i.rs2
  | .lit _ => True
  | .num1 => i.rs1.isSome
  | .hex2 | .num2 => i.rs2.isSome
  | .imm | .immHex | .immHexBare | .immAtSp => i.imm.isSome
  | .immAt2 => i.imm.isSome ∧ isNamed i.rs2

theorem argStr_text (i : Instruction) (a : Arg) (h : ready i a) : argText i a (argStr i a) := by
  cases a <;> simp only [ready, isNamed, Option.isSome_iff_exists] at h
  case rd | rs1 | rs2 =>
    obtain ⟨n, e, h⟩ := h
    exact ⟨n, e, h, by simp [argStr, e]⟩
  case lit => rfl
  case at1 =>
    obtain ⟨n, e, h⟩ := h
    exact ⟨_, ⟨n, e, h, rfl⟩, by simp [argStr, e]⟩
  case num1 | num2 =>
    obtain ⟨n, e⟩ := h
    refine ⟨n, e, ?_⟩
    simp only [argStr, e, Option.getD_some]
    exact fmtUsize_isDecimal n
  case hex2 =>
    obtain ⟨n, e⟩ := h
    exact ⟨n, _, e, hexNat_isHex n, by simp [argStr, e]⟩
  case imm =>
    obtain ⟨n, e⟩ := h
    refine ⟨n, e, ?_⟩
    simp only [argStr, e, Option.getD_some]
    exact fmtI32_isDecimal n
  case immHex =>
    obtain ⟨n, e⟩ := h
    exact ⟨n, _, e, fmtI32Hex_isHex32 n, by simp [argStr, e]⟩
  case immHexBare =>
    obtain ⟨n, e⟩ := h
    refine ⟨n, e, ?_⟩
    simp only [argStr, e, Option.getD_some]
    exact fmtI32Hex_isHex32 n
  case immAt2 =>
    obtain ⟨⟨z, e⟩, n, e', h⟩ := h
    exact ⟨z, _, _, e, fmtI32_isDecimal z, ⟨n, e', h, rfl⟩, by simp [argStr, e, e']⟩
  case immAtSp =>
    obtain ⟨z, e⟩ := h
    exact ⟨z, _, e, fmtI32_isDecimal z, by simp [argStr, e]⟩

theorem ready_of_text (i : Instruction) (a : Arg) (s : String) (h : argText i a s) : ready i a := by
  cases a <;> simp only [argText, isName] at h <;>
    simp only [ready, isNamed, Option.isSome_iff_exists]
  case rd | rs1 | rs2 => obtain ⟨n, e, h, -⟩ := h; exact ⟨n, e, h⟩
  case at1 => obtain ⟨r, ⟨n, e, h, -⟩, -⟩ := h; exact ⟨n, e, h⟩
  case num1 | num2 => obtain ⟨n, e, -⟩ := h; exact ⟨n, e⟩
  case hex2 => obtain ⟨n, d, e, -⟩ := h; exact ⟨n, e⟩
  case imm | immHexBare => obtain ⟨n, e, -⟩ := h; exact ⟨n, e⟩
  case immHex => obtain ⟨n, d, e, -⟩ := h; exact ⟨n, e⟩
  case immAt2 => obtain ⟨z, d, r, e, -, ⟨n, e', h, -⟩, -⟩ := h; exact ⟨⟨z, e⟩, n, e', h⟩
  case immAtSp => obtain ⟨z, d, e, -⟩ := h; exact ⟨z, e⟩

theorem reg_bind (o : Option Nat) :
    (∃ n, o = some n ∧ n < 32 ∧ unwrap o = .ok n ∧ reg2str n = .ok (abiName n)) ∨
      (¬ isNamed o ∧ ∀ (α : Type) (f : String → RustM α),
        (unwrap o >>= fun n => reg2str n >>= f) = .panic) := by
  rcases o with _ | n
  · exact .inr ⟨(by rintro ⟨n, h, -⟩; cases h), fun _ _ => rfl⟩
  · by_cases h : n < 32
    · exact .inl ⟨n, rfl, h, rfl, reg2str_ok n h⟩
    · refine .inr ⟨(by rintro ⟨m, e, hm⟩; injection e with e; omega), fun _ f => ?_⟩
      show (reg2str n).bind f = _
      rw [reg2str_panic n (by omega)]; rfl

theorem opt_bind {α : Type} (o : Option α) :
    (∃ a, o = some a ∧ unwrap o = .ok a) ∨
      (o.isSome = false ∧ ∀ (β : Type) (f : α → RustM β), (unwrap o >>= f) = .panic) := by
  rcases o with _ | a
  · exact .inr ⟨rfl, fun _ _ => rfl⟩
  · exact .inl ⟨a, rfl, rfl⟩

theorem rbind_ok {α β : Type} (a : α) (f : α → RustM β) : ((RustM.ok a) >>= f) = f a := rfl

theorem lit1 (s : String) : ", " ++ ("0x" ++ s) = ", 0x" ++ s := by
  rw [← String.append_assoc]; rfl
theorem lit2 (s : String) : ", " ++ ("sp, " ++ s) = ", sp, " ++ s := by
  rw [← String.append_assoc]; rfl
theorem lit3 (s : String) : " " ++ ("zero, " ++ ("0(" ++ s)) = " zero, 0(" ++ s := by
  rw [← String.append_assoc, ← String.append_assoc]; rfl
theorem lit4 (s : String) : " " ++ ("ra, " ++ ("0(" ++ s)) = " ra, 0(" ++ s := by
  rw [← String.append_assoc, ← String.append_assoc]; rfl

/-- The statement of `fmt_spec`, for one value. -/
def FmtSpec (i : Instruction) : Prop :=
  (∃ as, formatArgs i.instFormat i.opc = some as ∧ (∀ a ∈ as, ready i a) ∧
    i.fmt = .ok (line i.opc.toStr (as.map (argStr i)))) ∨
  ((∀ as, formatArgs i.instFormat i.opc = some as → ∃ a ∈ as, ¬ ready i a) ∧ i.fmt = .panic)

/-- Closes a case where all operands are there: the format equation, the equations of the operands and
the evaluation of the register names. -/
macro "fmt_ok" "[" hs:Lean.Parser.Tactic.simpLemma,* "]" : tactic => `(tactic|
  (refine .inl ⟨_, by simp only [formatArgs, $hs,*] <;> rfl, ?_, ?_⟩
   · simp [ready, isNamed, $hs,*]
   · simp [Instruction.fmt, unwrap, rbind_ok, line, commas, argStr, String.append_assoc, toString, lit1, lit2,
      lit3, lit4, $hs,*]))

/-- Closes a case where an operand is missing. -/
macro "fmt_bad" "[" hs:Lean.Parser.Tactic.simpLemma,* "]" : tactic => `(tactic|
  (refine .inr ⟨?_, ?_⟩
   · simp [formatArgs, ready, $hs,*]
   · simp only [Instruction.fmt, rbind_ok, $hs,*]))

theorem fmt_RFormat (i : Instruction) (hf : i.instFormat = .RFormat) : FmtSpec i := by
  rcases reg_bind i.rd with ⟨n3, e3, l3, u3, r3⟩ | ⟨hn, hp⟩
  · rcases reg_bind i.rs1 with ⟨n2, e2, l2, u2, r2⟩ | ⟨hn, hp⟩
    · rcases reg_bind i.rs2 with ⟨n1, e1, l1, u1, r1⟩ | ⟨hn, hp⟩
      · fmt_ok [hf, e3, l3, u3, r3, e2, l2, u2, r2, e1, l1, u1, r1]
      · fmt_bad [hf, u3, r3, u2, r2, hn, hp]
    · fmt_bad [hf, u3, r3, hn, hp]
  · fmt_bad [hf, hn, hp]

theorem fmt_MFormat (i : Instruction) (hf : i.instFormat = .MFormat) : FmtSpec i := by
  rcases reg_bind i.rd with ⟨n3, e3, l3, u3, r3⟩ | ⟨hn, hp⟩
  · rcases reg_bind i.rs1 with ⟨n2, e2, l2, u2, r2⟩ | ⟨hn, hp⟩
    · rcases reg_bind i.rs2 with ⟨n1, e1, l1, u1, r1⟩ | ⟨hn, hp⟩
      · fmt_ok [hf, e3, l3, u3, r3, e2, l2, u2, r2, e1, l1, u1, r1]
      · fmt_bad [hf, u3, r3, u2, r2, hn, hp]
    · fmt_bad [hf, u3, r3, hn, hp]
  · fmt_bad [hf, hn, hp]

theorem fmt_RShamtFormat (i : Instruction) (hf : i.instFormat = .RShamtFormat) : FmtSpec i := by
  rcases reg_bind i.rd with ⟨n2, e2, l2, u2, r2⟩ | ⟨hn, hp⟩
  · rcases reg_bind i.rs1 with ⟨n1, e1, l1, u1, r1⟩ | ⟨hn, hp⟩
    · fmt_ok [hf, e2, l2, u2, r2, e1, l1, u1, r1]
    · fmt_bad [hf, u2, r2, hn, hp]
  · fmt_bad [hf, hn, hp]

theorem fmt_IFormat (i : Instruction) (hf : i.instFormat = .IFormat) : FmtSpec i := by
  rcases reg_bind i.rd with ⟨n3, e3, l3, u3, r3⟩ | ⟨hn, hp⟩
  · rcases reg_bind i.rs1 with ⟨n2, e2, l2, u2, r2⟩ | ⟨hn, hp⟩
    · rcases opt_bind i.imm with ⟨n1, e1, u1⟩ | ⟨hn, hp⟩
      · fmt_ok [hf, e3, l3, u3, r3, e2, l2, u2, r2, e1, u1]
      · fmt_bad [hf, u3, r3, u2, r2, hn, hp]
    · fmt_bad [hf, u3, r3, hn, hp]
  · fmt_bad [hf, hn, hp]

theorem fmt_ALrFormat (i : Instruction) (hf : i.instFormat = .ALrFormat) : FmtSpec i := by
  rcases reg_bind i.rd with ⟨n3, e3, l3, u3, r3⟩ | ⟨hn, hp⟩
  · rcases reg_bind i.rs1 with ⟨n2, e2, l2, u2, r2⟩ | ⟨hn, hp⟩
    · rcases opt_bind i.imm with ⟨n1, e1, u1⟩ | ⟨hn, hp⟩
      · fmt_ok [hf, e3, l3, u3, r3, e2, l2, u2, r2, e1, u1]
      · fmt_bad [hf, u3, r3, u2, r2, hn, hp]
    · fmt_bad [hf, u3, r3, hn, hp]
  · fmt_bad [hf, hn, hp]

theorem fmt_ClFormat (i : Instruction) (hf : i.instFormat = .ClFormat) : FmtSpec i := by
  rcases reg_bind i.rd with ⟨n3, e3, l3, u3, r3⟩ | ⟨hn, hp⟩
  · rcases reg_bind i.rs1 with ⟨n2, e2, l2, u2, r2⟩ | ⟨hn, hp⟩
    · rcases opt_bind i.imm with ⟨n1, e1, u1⟩ | ⟨hn, hp⟩
      · fmt_ok [hf, e3, l3, u3, r3, e2, l2, u2, r2, e1, u1]
      · fmt_bad [hf, u3, r3, u2, r2, hn, hp]
    · fmt_bad [hf, u3, r3, hn, hp]
  · fmt_bad [hf, hn, hp]

theorem fmt_SFormat (i : Instruction) (hf : i.instFormat = .SFormat) : FmtSpec i := by
  rcases reg_bind i.rs1 with ⟨n3, e3, l3, u3, r3⟩ | ⟨hn, hp⟩
  · rcases opt_bind i.imm with ⟨n2, e2, u2⟩ | ⟨hn, hp⟩
    · rcases reg_bind i.rs2 with ⟨n1, e1, l1, u1, r1⟩ | ⟨hn, hp⟩
      · fmt_ok [hf, e3, l3, u3, r3, e2, u2, e1, l1, u1, r1]
      · fmt_bad [hf, u3, r3, u2, hn, hp]
    · fmt_bad [hf, u3, r3, hn, hp]
  · fmt_bad [hf, hn, hp]

theorem fmt_BFormat (i : Instruction) (hf : i.instFormat = .BFormat) : FmtSpec i := by
  rcases reg_bind i.rs1 with ⟨n3, e3, l3, u3, r3⟩ | ⟨hn, hp⟩
  · rcases opt_bind i.imm with ⟨n2, e2, u2⟩ | ⟨hn, hp⟩
    · rcases reg_bind i.rs2 with ⟨n1, e1, l1, u1, r1⟩ | ⟨hn, hp⟩
      · fmt_ok [hf, e3, l3, u3, r3, e2, u2, e1, l1, u1, r1]
      · fmt_bad [hf, u3, r3, u2, hn, hp]
    · fmt_bad [hf, u3, r3, hn, hp]
  · fmt_bad [hf, hn, hp]

theorem fmt_CsFormat (i : Instruction) (hf : i.instFormat = .CsFormat) : FmtSpec i := by
  rcases reg_bind i.rs1 with ⟨n3, e3, l3, u3, r3⟩ | ⟨hn, hp⟩
  · rcases opt_bind i.imm with ⟨n2, e2, u2⟩ | ⟨hn, hp⟩
    · rcases reg_bind i.rs2 with ⟨n1, e1, l1, u1, r1⟩ | ⟨hn, hp⟩
      · fmt_ok [hf, e3, l3, u3, r3, e2, u2, e1, l1, u1, r1]
      · fmt_bad [hf, u3, r3, u2, hn, hp]
    · fmt_bad [hf, u3, r3, hn, hp]
  · fmt_bad [hf, hn, hp]

theorem fmt_UFormat (i : Instruction) (hf : i.instFormat = .UFormat) : FmtSpec i := by
  rcases reg_bind i.rd with ⟨n2, e2, l2, u2, r2⟩ | ⟨hn, hp⟩
  · rcases opt_bind i.imm with ⟨n1, e1, u1⟩ | ⟨hn, hp⟩
    · fmt_ok [hf, e2, l2, u2, r2, e1, u1]
    · fmt_bad [hf, u2, r2, hn, hp]
  · fmt_bad [hf, hn, hp]

theorem fmt_JFormat (i : Instruction) (hf : i.instFormat = .JFormat) : FmtSpec i := by
  rcases reg_bind i.rd with ⟨n2, e2, l2, u2, r2⟩ | ⟨hn, hp⟩
  · rcases opt_bind i.imm with ⟨n1, e1, u1⟩ | ⟨hn, hp⟩
    · fmt_ok [hf, e2, l2, u2, r2, e1, u1]
    · fmt_bad [hf, u2, r2, hn, hp]
  · fmt_bad [hf, hn, hp]

theorem fmt_CiwFormat (i : Instruction) (hf : i.instFormat = .CiwFormat) : FmtSpec i := by
  rcases reg_bind i.rd with ⟨n2, e2, l2, u2, r2⟩ | ⟨hn, hp⟩
  · rcases opt_bind i.imm with ⟨n1, e1, u1⟩ | ⟨hn, hp⟩
    · fmt_ok [hf, e2, l2, u2, r2, e1, u1]
    · fmt_bad [hf, u2, r2, hn, hp]
  · fmt_bad [hf, hn, hp]

theorem fmt_CssFormat (i : Instruction) (hf : i.instFormat = .CssFormat) : FmtSpec i := by
  rcases reg_bind i.rs2 with ⟨n2, e2, l2, u2, r2⟩ | ⟨hn, hp⟩
  · rcases opt_bind i.imm with ⟨n1, e1, u1⟩ | ⟨hn, hp⟩
    · fmt_ok [hf, e2, l2, u2, r2, e1, u1]
    · fmt_bad [hf, u2, r2, hn, hp]
  · fmt_bad [hf, hn, hp]

theorem fmt_CjFormat (i : Instruction) (hf : i.instFormat = .CjFormat) : FmtSpec i := by
  rcases opt_bind i.imm with ⟨n1, e1, u1⟩ | ⟨hn, hp⟩
  · fmt_ok [hf, e1, u1]
  · fmt_bad [hf, hn, hp]

theorem fmt_CiFormat (i : Instruction) (hf : i.instFormat = .CiFormat) : FmtSpec i := by
  rcases reg_bind i.rd with ⟨n2, e2, l2, u2, r2⟩ | ⟨hn, hp⟩
  · rcases opt_bind i.imm with ⟨n1, e1, u1⟩ | ⟨hn, hp⟩
    · fmt_ok [hf, e2, l2, u2, r2, e1, u1]
    · fmt_bad [hf, u2, r2, hn, hp]
  · fmt_bad [hf, hn, hp]

theorem fmt_CaFormat (i : Instruction) (hf : i.instFormat = .CaFormat) : FmtSpec i := by
  rcases reg_bind i.rd with ⟨n2, e2, l2, u2, r2⟩ | ⟨hn, hp⟩
  · rcases reg_bind i.rs2 with ⟨n1, e1, l1, u1, r1⟩ | ⟨hn, hp⟩
    · fmt_ok [hf, e2, l2, u2, r2, e1, l1, u1, r1]
    · fmt_bad [hf, u2, r2, hn, hp]
  · fmt_bad [hf, hn, hp]

theorem fmt_CbFormat (i : Instruction) (hf : i.instFormat = .CbFormat) : FmtSpec i := by
  rcases opt_bind i.rs1 with ⟨n2, e2, u2⟩ | ⟨hn, hp⟩
  · rcases opt_bind i.imm with ⟨n1, e1, u1⟩ | ⟨hn, hp⟩
    · fmt_ok [hf, e2, u2, e1, u1]
    · fmt_bad [hf, u2, hn, hp]
  · fmt_bad [hf, hn, hp]

theorem fmt_CsrFormat (i : Instruction) (hf : i.instFormat = .CsrFormat) : FmtSpec i := by
  rcases reg_bind i.rd with ⟨n3, e3, l3, u3, r3⟩ | ⟨hn, hp⟩
  · rcases opt_bind i.rs2 with ⟨n2, e2, u2⟩ | ⟨hn, hp⟩
    · rcases reg_bind i.rs1 with ⟨n1, e1, l1, u1, r1⟩ | ⟨hn, hp⟩
      · fmt_ok [hf, e3, l3, u3, r3, e2, u2, e1, l1, u1, r1]
      · fmt_bad [hf, u3, r3, u2, hn, hp]
    · fmt_bad [hf, u3, r3, hn, hp]
  · fmt_bad [hf, hn, hp]

theorem fmt_CsrUiFormat (i : Instruction) (hf : i.instFormat = .CsrUiFormat) : FmtSpec i := by
  rcases reg_bind i.rd with ⟨n3, e3, l3, u3, r3⟩ | ⟨hn, hp⟩
  · rcases opt_bind i.rs2 with ⟨n2, e2, u2⟩ | ⟨hn, hp⟩
    · rcases opt_bind i.imm with ⟨n1, e1, u1⟩ | ⟨hn, hp⟩
      · fmt_ok [hf, e3, l3, u3, r3, e2, u2, e1, u1]
      · fmt_bad [hf, u3, r3, u2, hn, hp]
    · fmt_bad [hf, u3, r3, hn, hp]
  · fmt_bad [hf, hn, hp]

theorem fmt_OnlyRd (i : Instruction) (hf : i.instFormat = .OnlyRd) : FmtSpec i := by
  rcases reg_bind i.rd with ⟨n1, e1, l1, u1, r1⟩ | ⟨hn, hp⟩
  · fmt_ok [hf, e1, l1, u1, r1]
  · fmt_bad [hf, hn, hp]

theorem fmt_OnlyRs1 (i : Instruction) (hf : i.instFormat = .OnlyRs1) : FmtSpec i := by
  rcases reg_bind i.rs1 with ⟨n1, e1, l1, u1, r1⟩ | ⟨hn, hp⟩
  · fmt_ok [hf, e1, l1, u1, r1]
  · fmt_bad [hf, hn, hp]

theorem fmt_OnlyRs2 (i : Instruction) (hf : i.instFormat = .OnlyRs2) : FmtSpec i := by
  rcases reg_bind i.rs2 with ⟨n1, e1, l1, u1, r1⟩ | ⟨hn, hp⟩
  · fmt_ok [hf, e1, l1, u1, r1]
  · fmt_bad [hf, hn, hp]

theorem fmt_AFormat (i : Instruction) (hf : i.instFormat = .AFormat) : FmtSpec i := by
  by_cases ho : i.opc = .A .LR_W ∨ i.opc = .A .LR_D
  · have hfmt : i.fmt = (do
        .ok s!"{i.opc.toStr} {← reg2str (← unwrap i.rd)}, {← reg2str (← unwrap i.rs1)}") := by
      rcases ho with ho | ho <;> simp only [Instruction.fmt, hf, ho]
    have ha : formatArgs i.instFormat i.opc = some [.rd, .rs1] := by
      simp only [formatArgs, hf, ho, if_true]
    rcases reg_bind i.rd with ⟨n2, e2, l2, u2, r2⟩ | ⟨hn, hp⟩
    · rcases reg_bind i.rs1 with ⟨n1, e1, l1, u1, r1⟩ | ⟨hn, hp⟩
      · refine .inl ⟨_, ha, by simp [ready, isNamed, e1, e2, l1, l2], ?_⟩
        rw [hfmt]
        simp [unwrap, rbind_ok, line, commas, argStr, String.append_assoc, toString, e1, e2, r1, r2]
      · refine .inr ⟨by rw [ha]; simp [ready, hn], ?_⟩
        rw [hfmt]; simp only [rbind_ok, u2, r2, hp]
    · refine .inr ⟨by rw [ha]; simp [ready, hn], ?_⟩
      rw [hfmt]; simp only [hp]
  · have hfmt : i.fmt = (do
        .ok s!"{i.opc.toStr} {← reg2str (← unwrap i.rd)}, {← reg2str (← unwrap i.rs1)}, {← reg2str (← unwrap i.rs2)}") := by
      simp only [Instruction.fmt, hf]
      split
      · exact absurd (.inl ‹_›) ho
      · exact absurd (.inr ‹_›) ho
      · rfl
    have ha : formatArgs i.instFormat i.opc = some [.rd, .rs1, .rs2] := by
      simp only [formatArgs, hf, ho, if_false]
    rcases reg_bind i.rd with ⟨n3, e3, l3, u3, r3⟩ | ⟨hn, hp⟩
    · rcases reg_bind i.rs1 with ⟨n2, e2, l2, u2, r2⟩ | ⟨hn, hp⟩
      · rcases reg_bind i.rs2 with ⟨n1, e1, l1, u1, r1⟩ | ⟨hn, hp⟩
        · refine .inl ⟨_, ha, by simp [ready, isNamed, e1, e2, e3, l1, l2, l3], ?_⟩
          rw [hfmt]
          simp [unwrap, rbind_ok, line, commas, argStr, String.append_assoc, toString, e1, e2, e3, r1,
            r2, r3]
        · refine .inr ⟨by rw [ha]; simp [ready, hn], ?_⟩
          rw [hfmt]; simp only [rbind_ok, u2, r2, u3, r3, hp]
      · refine .inr ⟨by rw [ha]; simp [ready, hn], ?_⟩
        rw [hfmt]; simp only [rbind_ok, u3, r3, hp]
    · refine .inr ⟨by rw [ha]; simp [ready, hn], ?_⟩
      rw [hfmt]; simp only [hp]

theorem fmt_CrFormat (i : Instruction) (hf : i.instFormat = .CrFormat) : FmtSpec i := by
  by_cases h1 : i.opc = .C .JR
  · rcases reg_bind i.rs1 with ⟨n1, e1, l1, u1, r1⟩ | ⟨hn, hp⟩
    · fmt_ok [hf, h1, e1, l1, r1]
    · fmt_bad [hf, h1, hn, hp]
  by_cases h2 : i.opc = .C .JALR
  · rcases reg_bind i.rs1 with ⟨n1, e1, l1, u1, r1⟩ | ⟨hn, hp⟩
    · fmt_ok [hf, h2, e1, l1, r1]
    · fmt_bad [hf, h2, hn, hp]
  by_cases h3 : i.opc = .C .MV
  · rcases reg_bind i.rd with ⟨n2, e2, l2, u2, r2⟩ | ⟨hn, hp⟩
    · rcases reg_bind i.rs2 with ⟨n1, e1, l1, u1, r1⟩ | ⟨hn, hp⟩
      · fmt_ok [hf, h3, e1, l1, r1, e2, l2, r2]
      · fmt_bad [hf, h3, u2, r2, hn, hp]
    · fmt_bad [hf, h3, hn, hp]
  by_cases h4 : i.opc = .C .ADD
  · rcases reg_bind i.rd with ⟨n2, e2, l2, u2, r2⟩ | ⟨hn, hp⟩
    · rcases reg_bind i.rs2 with ⟨n1, e1, l1, u1, r1⟩ | ⟨hn, hp⟩
      · fmt_ok [hf, h4, e1, l1, r1, e2, l2, r2]
      · fmt_bad [hf, h4, u2, r2, hn, hp]
    · fmt_bad [hf, h4, hn, hp]
  refine .inr ⟨by simp [formatArgs, hf, h1, h2, h3, h4], ?_⟩
  simp only [Instruction.fmt, hf]

theorem fmt_NoOperand (i : Instruction) (hf : i.instFormat = .NoOperand) : FmtSpec i := by
  by_cases h : i.opc ∈ [OpcodeKind.BaseI .ECALL, .BaseI .EBREAK, .Zifencei .FENCE, .C .NOP, .C .EBREAK,
      .Priv .MRET, .Priv .SRET, .Priv .WFI, .Priv .SFENCE_VMA]
  · refine .inl ⟨[], by simp only [formatArgs, hf, h, if_true], by simp, ?_⟩
    simp only [List.mem_cons, List.not_mem_nil, or_false] at h
    rcases h with h | h | h | h | h | h | h | h | h <;>
      simp only [Instruction.fmt, hf, h, line, List.map_nil]
  · refine .inr ⟨by simp only [formatArgs, hf, h, if_false]; simp, ?_⟩
    simp only [List.mem_cons, List.not_mem_nil, or_false, not_or] at h
    simp only [Instruction.fmt, hf]
    split <;> first | (exfalso; simp_all; done) | rfl

/-- `Display` for any instruction value: the text if the operands its format prints are there, a panic
otherwise. -/
theorem fmt_spec (i : Instruction) : FmtSpec i := by
  cases hf : i.instFormat
  all_goals first
    | exact fmt_RFormat i hf | exact fmt_MFormat i hf | exact fmt_RShamtFormat i hf
    | exact fmt_IFormat i hf | exact fmt_ALrFormat i hf | exact fmt_ClFormat i hf
    | exact fmt_SFormat i hf | exact fmt_BFormat i hf | exact fmt_CsFormat i hf
    | exact fmt_UFormat i hf | exact fmt_JFormat i hf | exact fmt_CiwFormat i hf
    | exact fmt_CssFormat i hf | exact fmt_CjFormat i hf | exact fmt_CiFormat i hf
    | exact fmt_CaFormat i hf | exact fmt_CbFormat i hf | exact fmt_CsrFormat i hf
    | exact fmt_CsrUiFormat i hf | exact fmt_OnlyRd i hf | exact fmt_OnlyRs1 i hf
    | exact fmt_OnlyRs2 i hf | exact fmt_AFormat i hf | exact fmt_CrFormat i hf
    | exact fmt_NoOperand i hf

theorem argTexts_map (i : Instruction) (as : List Arg) (h : ∀ a ∈ as, ready i a) :
    argTexts i as (as.map (argStr i)) := by
  induction as with
  | nil => trivial
  | cons a as ih =>
      exact ⟨argStr_text i a (h a (by simp)), ih fun b hb => h b (by simp [hb])⟩

theorem ready_of_texts (i : Instruction) (as : List Arg) (ss : List String)
    (h : argTexts i as ss) : ∀ a ∈ as, ready i a := by
  induction as generalizing ss with
  | nil => simp
  | cons a as ih =>
      cases ss with
      | nil => exact h.elim
      | cons s ss =>
          intro b hb
          rcases List.mem_cons.1 hb with rfl | hb
          · exact ready_of_text i b s h.1
          · exact ih ss h.2 b hb

end Raki
