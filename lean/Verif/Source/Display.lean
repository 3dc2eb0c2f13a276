import Verif.Source.Decode
import Verif.Lemmas.Writes
/-!
# Running `Display` of the source
-/

namespace Raki.Source

set_option linter.unusedSimpArgs false
set_option maxHeartbeats 2000000

theorem instruction_reg2str_eq (md : Build) (n k : Nat) :
    call crate md (n + 1) .instruction .reg2str [.usize k] = outV (reg2str k) := by
  rw [call_instruction_reg2str, reg2str.eq_def]
  simp only [instruction_reg2str, run, bindParams, Option.map_some, coerce_usize_usize, eval, Env.get, ite_true,
    bind_val]
  apply Eq.symm
  split
  all_goals first
    | rfl
    | ((try simp only [imp_false] at *)
       walk []
       rfl)

theorem BaseIOpcode_fmt_eq (md : Build) (n : Nat) (o : BaseIOpcode) :
    call crate md (n + 1) .BaseIOpcode .fmt [emb o] = .val (.wrote [o.toStr]) := by
  rw [call_BaseIOpcode_fmt]
  simp only [BaseIOpcode_fmt, run, bindParams, Option.map_some, coerce_other, eval, evalPieces, Env.get, ite_true,
    bind_val, evalArms, List.append_nil]
  cases o <;> rfl

theorem MOpcode_fmt_eq (md : Build) (n : Nat) (o : MOpcode) :
    call crate md (n + 1) .MOpcode .fmt [emb o] = .val (.wrote [o.toStr]) := by
  rw [call_MOpcode_fmt]
  simp only [MOpcode_fmt, run, bindParams, Option.map_some, coerce_other, eval, evalPieces, Env.get, ite_true,
    bind_val, evalArms, List.append_nil]
  cases o <;> rfl

theorem AOpcode_fmt_eq (md : Build) (n : Nat) (o : AOpcode) :
    call crate md (n + 1) .AOpcode .fmt [emb o] = .val (.wrote [o.toStr]) := by
  rw [call_AOpcode_fmt]
  simp only [AOpcode_fmt, run, bindParams, Option.map_some, coerce_other, eval, evalPieces, Env.get, ite_true,
    bind_val, evalArms, List.append_nil]
  cases o <;> rfl

theorem COpcode_fmt_eq (md : Build) (n : Nat) (o : COpcode) :
    call crate md (n + 1) .COpcode .fmt [emb o] = .val (.wrote [o.toStr]) := by
  rw [call_COpcode_fmt]
  simp only [COpcode_fmt, run, bindParams, Option.map_some, coerce_other, eval, evalPieces, Env.get, ite_true,
    bind_val, evalArms, List.append_nil]
  cases o <;> rfl

theorem ZifenceiOpcode_fmt_eq (md : Build) (n : Nat) (o : ZifenceiOpcode) :
    call crate md (n + 1) .ZifenceiOpcode .fmt [emb o] = .val (.wrote [o.toStr]) := by
  rw [call_ZifenceiOpcode_fmt]
  simp only [ZifenceiOpcode_fmt, run, bindParams, Option.map_some, coerce_other, eval, evalPieces, Env.get, ite_true,
    bind_val, evalArms, List.append_nil]
  cases o <;> rfl

theorem ZicbozOpcode_fmt_eq (md : Build) (n : Nat) (o : ZicbozOpcode) :
    call crate md (n + 1) .ZicbozOpcode .fmt [emb o] = .val (.wrote [o.toStr]) := by
  rw [call_ZicbozOpcode_fmt]
  simp only [ZicbozOpcode_fmt, run, bindParams, Option.map_some, coerce_other, eval, evalPieces, Env.get, ite_true,
    bind_val, evalArms, List.append_nil]
  cases o <;> rfl

theorem ZicsrOpcode_fmt_eq (md : Build) (n : Nat) (o : ZicsrOpcode) :
    call crate md (n + 1) .ZicsrOpcode .fmt [emb o] = .val (.wrote [o.toStr]) := by
  rw [call_ZicsrOpcode_fmt]
  simp only [ZicsrOpcode_fmt, run, bindParams, Option.map_some, coerce_other, eval, evalPieces, Env.get, ite_true,
    bind_val, evalArms, List.append_nil]
  cases o <;> rfl

theorem ZicfissOpcode_fmt_eq (md : Build) (n : Nat) (o : ZicfissOpcode) :
    call crate md (n + 1) .ZicfissOpcode .fmt [emb o] = .val (.wrote [o.toStr]) := by
  rw [call_ZicfissOpcode_fmt]
  simp only [ZicfissOpcode_fmt, run, bindParams, Option.map_some, coerce_other, eval, evalPieces, Env.get, ite_true,
    bind_val, evalArms, List.append_nil]
  cases o <;> rfl

theorem ZicntrOpcode_fmt_eq (md : Build) (n : Nat) (o : ZicntrOpcode) :
    call crate md (n + 1) .ZicntrOpcode .fmt [emb o] = .val (.wrote [o.toStr]) := by
  rw [call_ZicntrOpcode_fmt]
  simp only [ZicntrOpcode_fmt, run, bindParams, Option.map_some, coerce_other, eval, evalPieces, Env.get, ite_true,
    bind_val, evalArms, List.append_nil]
  cases o <;> rfl

theorem PrivOpcode_fmt_eq (md : Build) (n : Nat) (o : PrivOpcode) :
    call crate md (n + 1) .PrivOpcode .fmt [emb o] = .val (.wrote [o.toStr]) := by
  rw [call_PrivOpcode_fmt]
  simp only [PrivOpcode_fmt, run, bindParams, Option.map_some, coerce_other, eval, evalPieces, Env.get, ite_true,
    bind_val, evalArms, List.append_nil]
  cases o <;> rfl

theorem showVal_variant (f : Id → Id → List Val → Out Val) (v : Val) (t : Id) (s : String)
    (h : ∃ c, v = .variant t c) (h2 : f t .fmt [v] = .val (.wrote [s])) :
    showVal f .display v = .val [s] := by
  obtain ⟨c, rfl⟩ := h
  simp only [showVal, h2, bind_val]

theorem showVal_variantOf (f : Id → Id → List Val → Out Val) (v : Val) (t : Id) (s : String)
    (h : ∃ c x, v = .variantOf t c x) (h2 : f t .fmt [v] = .val (.wrote [s])) :
    showVal f .display v = .val [s] := by
  obtain ⟨c, x, rfl⟩ := h
  simp only [showVal, h2, bind_val]

theorem OpcodeKind_fmt_eq (md : Build) (n : Nat) (op : OpcodeKind) :
    call crate md (n + 2) .OpcodeKind .fmt [emb op] = .val (.wrote [op.toStr]) := by
  rw [call_OpcodeKind_fmt]
  rcases op with o | o | o | o | o | o | o | o | o | o
  · have h := showVal_variant (call crate md (n + 1)) (emb o) .BaseIOpcode o.toStr
      (by cases o <;> exact ⟨_, rfl⟩) (BaseIOpcode_fmt_eq md n o)
    simp only [emb_BaseI, OpcodeKind_fmt, run, bindParams, Option.map_some, coerce_other, eval, evalPieces, Env.get,
      ite_true, bind_val, evalArms, List.append_nil, ↓ctor1_eq, ↓ctor1_ne, reduceCtorEq, not_false_eq_true,
      match_var, h, leave_val, OpcodeKind.toStr]
  · have h := showVal_variant (call crate md (n + 1)) (emb o) .MOpcode o.toStr
      (by cases o <;> exact ⟨_, rfl⟩) (MOpcode_fmt_eq md n o)
    simp only [emb_M, OpcodeKind_fmt, run, bindParams, Option.map_some, coerce_other, eval, evalPieces, Env.get,
      ite_true, bind_val, evalArms, List.append_nil, ↓ctor1_eq, ↓ctor1_ne, reduceCtorEq, not_false_eq_true,
      match_var, h, leave_val, OpcodeKind.toStr]
  · have h := showVal_variant (call crate md (n + 1)) (emb o) .AOpcode o.toStr
      (by cases o <;> exact ⟨_, rfl⟩) (AOpcode_fmt_eq md n o)
    simp only [emb_A, OpcodeKind_fmt, run, bindParams, Option.map_some, coerce_other, eval, evalPieces, Env.get,
      ite_true, bind_val, evalArms, List.append_nil, ↓ctor1_eq, ↓ctor1_ne, reduceCtorEq, not_false_eq_true,
      match_var, h, leave_val, OpcodeKind.toStr]
  · have h := showVal_variant (call crate md (n + 1)) (emb o) .COpcode o.toStr
      (by cases o <;> exact ⟨_, rfl⟩) (COpcode_fmt_eq md n o)
    simp only [emb_C, OpcodeKind_fmt, run, bindParams, Option.map_some, coerce_other, eval, evalPieces, Env.get,
      ite_true, bind_val, evalArms, List.append_nil, ↓ctor1_eq, ↓ctor1_ne, reduceCtorEq, not_false_eq_true,
      match_var, h, leave_val, OpcodeKind.toStr]
  · have h := showVal_variant (call crate md (n + 1)) (emb o) .ZifenceiOpcode o.toStr
      (by cases o <;> exact ⟨_, rfl⟩) (ZifenceiOpcode_fmt_eq md n o)
    simp only [emb_Zifencei, OpcodeKind_fmt, run, bindParams, Option.map_some, coerce_other, eval, evalPieces, Env.get,
      ite_true, bind_val, evalArms, List.append_nil, ↓ctor1_eq, ↓ctor1_ne, reduceCtorEq, not_false_eq_true,
      match_var, h, leave_val, OpcodeKind.toStr]
  · have h := showVal_variant (call crate md (n + 1)) (emb o) .ZicbozOpcode o.toStr
      (by cases o <;> exact ⟨_, rfl⟩) (ZicbozOpcode_fmt_eq md n o)
    simp only [emb_Zicboz, OpcodeKind_fmt, run, bindParams, Option.map_some, coerce_other, eval, evalPieces, Env.get,
      ite_true, bind_val, evalArms, List.append_nil, ↓ctor1_eq, ↓ctor1_ne, reduceCtorEq, not_false_eq_true,
      match_var, h, leave_val, OpcodeKind.toStr]
  · have h := showVal_variant (call crate md (n + 1)) (emb o) .ZicsrOpcode o.toStr
      (by cases o <;> exact ⟨_, rfl⟩) (ZicsrOpcode_fmt_eq md n o)
    simp only [emb_Zicsr, OpcodeKind_fmt, run, bindParams, Option.map_some, coerce_other, eval, evalPieces, Env.get,
      ite_true, bind_val, evalArms, List.append_nil, ↓ctor1_eq, ↓ctor1_ne, reduceCtorEq, not_false_eq_true,
      match_var, h, leave_val, OpcodeKind.toStr]
  · have h := showVal_variant (call crate md (n + 1)) (emb o) .ZicfissOpcode o.toStr
      (by cases o <;> exact ⟨_, rfl⟩) (ZicfissOpcode_fmt_eq md n o)
    simp only [emb_Zicfiss, OpcodeKind_fmt, run, bindParams, Option.map_some, coerce_other, eval, evalPieces, Env.get,
      ite_true, bind_val, evalArms, List.append_nil, ↓ctor1_eq, ↓ctor1_ne, reduceCtorEq, not_false_eq_true,
      match_var, h, leave_val, OpcodeKind.toStr]
  · have h := showVal_variant (call crate md (n + 1)) (emb o) .ZicntrOpcode o.toStr
      (by cases o <;> exact ⟨_, rfl⟩) (ZicntrOpcode_fmt_eq md n o)
    simp only [emb_Zicntr, OpcodeKind_fmt, run, bindParams, Option.map_some, coerce_other, eval, evalPieces, Env.get,
      ite_true, bind_val, evalArms, List.append_nil, ↓ctor1_eq, ↓ctor1_ne, reduceCtorEq, not_false_eq_true,
      match_var, h, leave_val, OpcodeKind.toStr]
  · have h := showVal_variant (call crate md (n + 1)) (emb o) .PrivOpcode o.toStr
      (by cases o <;> exact ⟨_, rfl⟩) (PrivOpcode_fmt_eq md n o)
    simp only [emb_Priv, OpcodeKind_fmt, run, bindParams, Option.map_some, coerce_other, eval, evalPieces, Env.get,
      ite_true, bind_val, evalArms, List.append_nil, ↓ctor1_eq, ↓ctor1_ne, reduceCtorEq, not_false_eq_true,
      match_var, h, leave_val, OpcodeKind.toStr]

theorem showVal_opcode (md : Build) (n : Nat) (op : OpcodeKind) :
    showVal (call crate md (n + 2)) .display (emb op) = .val [op.toStr] :=
  showVal_variantOf _ _ .OpcodeKind _ (by cases op <;> exact ⟨_, _, rfl⟩) (OpcodeKind_fmt_eq md n op)

/-- The model's outcomes among those of the source. -/
def ofM {α : Type} : RustM α → Out α
  | .ok a => .val a
  | .err _ => .stuck
  | .panic => .panic

theorem ofM_bind {α β : Type} (x : RustM α) (f : α → RustM β) : ofM (x >>= f) = ofM x >>= fun a => ofM (f a) := by
  cases x <;> rfl

theorem out_assoc {α β γ : Type} (x : Out α) (f : α → Out β) (g : β → Out γ) :
    (x >>= f) >>= g = x >>= fun a => f a >>= g := by
  cases x <;> rfl

theorem outV_ofM {α : Type} [Emb α] (x : RustM α) : outV x = ofM x >>= fun a => .val (emb a) := by
  cases x <;> rfl

theorem leave_bind {α : Type} (x : RustM α) (f : α → Out Val) :
    leave .other (ofM x >>= f) = ofM x >>= fun a => leave .other (f a) := by
  cases x <;> rfl

theorem unwrap_emb {α : Type} [Emb α] (x : Option α) : unwrapVal (emb x) = ofM (unwrap x) >>= fun a => .val (emb a) := by
  cases x <;> rfl

theorem emb_nat (k : Nat) : emb k = Val.usize k := rfl
theorem emb_int (z : Int) : emb z = Val.i32 z := rfl
theorem emb_str (s : String) : emb s = Val.str s := rfl
theorem ofM_ok {α : Type} (a : α) : ofM (.ok a) = .val a := rfl

theorem show_str (f : Id → Id → List Val → Out Val) (s : String) : showVal f .display (.str s) = .val [s] := rfl
theorem show_usize (f : Id → Id → List Val → Out Val) (k : Nat) :
    showVal f .display (.usize k) = .val [fmtUsize k] := rfl
theorem show_i32 (f : Id → Id → List Val → Out Val) (z : Int) :
    showVal f .display (.i32 z) = .val (piecesI32 z) := rfl
theorem hex_usize (f : Id → Id → List Val → Out Val) (k : Nat) :
    showVal f .lowerHex (.usize k) = .val [hexNat k] := rfl
theorem hex_i32 (f : Id → Id → List Val → Out Val) (z : Int) :
    showVal f .lowerHex (.i32 z) = .val [fmtI32Hex z] := rfl
theorem althex_usize (f : Id → Id → List Val → Out Val) (k : Nat) :
    showVal f .altLowerHex (.usize k) = .val (piecesHex (hexNat k)) := rfl
theorem althex_i32 (f : Id → Id → List Val → Out Val) (z : Int) :
    showVal f .altLowerHex (.i32 z) = .val (piecesHex (fmtI32Hex z)) := rfl

theorem emb_RFormat : emb InstFormat.RFormat = Val.variant .InstFormat .RFormat := rfl
theorem emb_RShamtFormat : emb InstFormat.RShamtFormat = Val.variant .InstFormat .RShamtFormat := rfl
theorem emb_IFormat : emb InstFormat.IFormat = Val.variant .InstFormat .IFormat := rfl
theorem emb_SFormat : emb InstFormat.SFormat = Val.variant .InstFormat .SFormat := rfl
theorem emb_BFormat : emb InstFormat.BFormat = Val.variant .InstFormat .BFormat := rfl
theorem emb_UFormat : emb InstFormat.UFormat = Val.variant .InstFormat .UFormat := rfl
theorem emb_JFormat : emb InstFormat.JFormat = Val.variant .InstFormat .JFormat := rfl
theorem emb_CrFormat : emb InstFormat.CrFormat = Val.variant .InstFormat .CrFormat := rfl
theorem emb_CiFormat : emb InstFormat.CiFormat = Val.variant .InstFormat .CiFormat := rfl
theorem emb_CssFormat : emb InstFormat.CssFormat = Val.variant .InstFormat .CssFormat := rfl
theorem emb_CiwFormat : emb InstFormat.CiwFormat = Val.variant .InstFormat .CiwFormat := rfl
theorem emb_ClFormat : emb InstFormat.ClFormat = Val.variant .InstFormat .ClFormat := rfl
theorem emb_CsFormat : emb InstFormat.CsFormat = Val.variant .InstFormat .CsFormat := rfl
theorem emb_CaFormat : emb InstFormat.CaFormat = Val.variant .InstFormat .CaFormat := rfl
theorem emb_CbFormat : emb InstFormat.CbFormat = Val.variant .InstFormat .CbFormat := rfl
theorem emb_CjFormat : emb InstFormat.CjFormat = Val.variant .InstFormat .CjFormat := rfl
theorem emb_CsrFormat : emb InstFormat.CsrFormat = Val.variant .InstFormat .CsrFormat := rfl
theorem emb_CsrUiFormat : emb InstFormat.CsrUiFormat = Val.variant .InstFormat .CsrUiFormat := rfl
theorem emb_MFormat : emb InstFormat.MFormat = Val.variant .InstFormat .MFormat := rfl
theorem emb_ALrFormat : emb InstFormat.ALrFormat = Val.variant .InstFormat .ALrFormat := rfl
theorem emb_AFormat : emb InstFormat.AFormat = Val.variant .InstFormat .AFormat := rfl
theorem emb_OnlyRd : emb InstFormat.OnlyRd = Val.variant .InstFormat .OnlyRd := rfl
theorem emb_OnlyRs1 : emb InstFormat.OnlyRs1 = Val.variant .InstFormat .OnlyRs1 := rfl
theorem emb_OnlyRs2 : emb InstFormat.OnlyRs2 = Val.variant .InstFormat .OnlyRs2 := rfl
theorem emb_NoOperand : emb InstFormat.NoOperand = Val.variant .InstFormat .NoOperand := rfl

theorem emb_LR_W : emb AOpcode.LR_W = Val.variant .AOpcode .LR_W := rfl
theorem emb_LR_D : emb AOpcode.LR_D = Val.variant .AOpcode .LR_D := rfl

/-- Evaluates `fmt` on both sides. -/
macro "texts" "[" ls:Lean.Parser.Tactic.simpLemma,* "]" : tactic =>
  `(tactic| simp -implicitDefEqProofs (decide := true) only [Instruction_fmt, Instruction.pieces, run, bindParams,
      Option.map_some, coerce_other, ↓eval, evalArgs, evalPieces, Env.get, getField, ↓evalArms, ite_true, ite_false,
      bind_val, ↓ctor_eq, ↓ctor_ne, ↓match_or, ↓match_wild, reduceCtorEq, not_false_eq_true, leave_val, showVal_opcode,
      unwrap_emb, instruction_reg2str_eq, outV_ofM, ofM_bind, ofM_ok, out_assoc, leave_bind, emb_nat, emb_int, emb_str,
      show_str, show_usize, show_i32, hex_usize, hex_i32, althex_usize, althex_i32,
      List.cons_append, List.nil_append, List.append_nil, List.append_assoc, $ls,*])

/-- The arms of `fmt`. -/
def fmtArms : Arms :=
  match Instruction_fmt.body with
  | .match_ _ arms => arms
  | _ => .nil

theorem fmt_start (md : Build) (f : Id → Id → List Val → Out Val) (i : Instruction) :
    run md f Instruction_fmt [emb i] =
      leave .other (evalArms md f [(.self, .val (emb i))] (emb i.instFormat) fmtArms) := rfl

/-- `LR_W` or `LR_D`. -/
def isLr : OpcodeKind → Bool
  | .A .LR_W | .A .LR_D => true
  | _ => false

theorem match_lr {α : Type} (op : OpcodeKind) (env : Env) (k : Env → Out α) (fail : Out α) :
    matchPat (emb op) env (.ctor1 .OpcodeKind .A (.or (.ctor .AOpcode .LR_W) (.ctor .AOpcode .LR_D))) k fail =
      if isLr op then k env else fail := by
  rcases op with o | o | o | o | o | o | o | o | o | o
  case A => cases o <;> rfl
  all_goals rfl

theorem pieces_lr (op : OpcodeKind) (rd rs1 rs2 : Option Nat) (imm : Option Int) (c : Bool) :
    Instruction.pieces ⟨op, rd, rs1, rs2, imm, .AFormat, c⟩ = if isLr op then (do
      let rd ← reg2str (← unwrap rd)
      let rs1 ← reg2str (← unwrap rs1)
      .ok [op.toStr, " ", rd, ", ", rs1]) else (do
      let rd ← reg2str (← unwrap rd)
      let rs1 ← reg2str (← unwrap rs1)
      let rs2 ← reg2str (← unwrap rs2)
      .ok [op.toStr, " ", rd, ", ", rs1, ", ", rs2]) := by
  rcases op with o | o | o | o | o | o | o | o | o | o
  case A => cases o <;> rfl
  all_goals rfl

/-- The constructor of a value. -/
def ctorOf : Val → Id
  | .variant _ c => c
  | .variantOf _ c _ => c
  | _ => .self

theorem match_c_eq {α : Type} (o : COpcode) (x : Id) (h : x = ctorOf (emb o)) (env : Env) (k : Env → Out α)
    (fail : Out α) : matchPat (emb (OpcodeKind.C o)) env (.ctor1 .OpcodeKind .C (.ctor .COpcode x)) k fail = k env := by
  subst h; cases o <;> rfl

theorem match_c_ne {α : Type} (o : COpcode) (x : Id) (h : ¬ x = ctorOf (emb o)) (env : Env) (k : Env → Out α)
    (fail : Out α) : matchPat (emb (OpcodeKind.C o)) env (.ctor1 .OpcodeKind .C (.ctor .COpcode x)) k fail = fail := by
  obtain ⟨c, hc⟩ : ∃ c, emb o = .variant .COpcode c := by cases o <;> exact ⟨_, rfl⟩
  rw [hc] at h
  simp only [emb_C, hc, matchPat, ctorOf] at *
  simp [h]

/-- Outcomes of functions that write. -/
def outW (x : RustM (List String)) : Out Val := ofM x >>= fun cs => .val (.wrote cs)

theorem Instruction_fmt_eq (md : Build) (n : Nat) (i : Instruction) :
    call crate md (n + 3) .Instruction .fmt [emb i] = outW i.pieces := by
  rw [outW]
  rw [call_Instruction_fmt, fmt_start]
  obtain ⟨op, rd, rs1, rs2, imm, fmt, c⟩ := i
  simp only [show emb (Instruction.mk op rd rs1 rs2 imm fmt c) = Val.struct .Instruction
    [(.opc, emb op), (.rd, emb rd), (.rs1, emb rs1), (.rs2, emb rs2), (.imm, emb imm), (.inst_format, emb fmt),
      (.is_compressed, emb c)] from rfl, fmtArms]
  cases fmt
  case AFormat =>
    rw [pieces_lr]
    cases h : isLr op
    · texts [emb_AFormat, ↓match_lr, h, Bool.false_eq_true]
    · texts [emb_AFormat, ↓match_lr, h]
  case CrFormat =>
    rcases op with o | o | o | o | o | o | o | o | o | o
    case C =>
      cases o
      case JR | JALR | MV | ADD => all_goals texts [emb_CrFormat, ↓match_c_eq, ↓match_c_ne]
      all_goals rfl
    all_goals rfl
  case NoOperand =>
    rcases op with o | o | o | o | o | o | o | o | o | o <;> cases o <;> first | rfl | skip
  all_goals texts [emb_RFormat, emb_RShamtFormat, emb_IFormat, emb_SFormat, emb_BFormat, emb_UFormat, emb_JFormat,
    emb_CrFormat, emb_CiFormat, emb_CssFormat, emb_CiwFormat, emb_ClFormat, emb_CsFormat,
    emb_CaFormat, emb_CbFormat, emb_CjFormat, emb_CsrFormat, emb_CsrUiFormat, emb_MFormat,
    emb_ALrFormat, emb_AFormat, emb_OnlyRd, emb_OnlyRs1, emb_OnlyRs2, emb_NoOperand]

end Raki.Source
