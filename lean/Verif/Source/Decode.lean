import Verif.Source.Opcode
import Verif.Source.Imm
import Verif.Model.Lib
/-!
# Running the decoders of the source
-/

namespace Raki.Source

set_option linter.unusedSimpArgs false
set_option maxHeartbeats 2000000

theorem emb_BaseI (o : BaseIOpcode) : emb (OpcodeKind.BaseI o) = Val.variantOf .OpcodeKind .BaseI (emb o) := rfl
theorem emb_M (o : MOpcode) : emb (OpcodeKind.M o) = Val.variantOf .OpcodeKind .M (emb o) := rfl
theorem emb_A (o : AOpcode) : emb (OpcodeKind.A o) = Val.variantOf .OpcodeKind .A (emb o) := rfl
theorem emb_C (o : COpcode) : emb (OpcodeKind.C o) = Val.variantOf .OpcodeKind .C (emb o) := rfl
theorem emb_Zifencei (o : ZifenceiOpcode) : emb (OpcodeKind.Zifencei o) = Val.variantOf .OpcodeKind .Zifencei (emb o) := rfl
theorem emb_Zicboz (o : ZicbozOpcode) : emb (OpcodeKind.Zicboz o) = Val.variantOf .OpcodeKind .Zicboz (emb o) := rfl
theorem emb_Zicsr (o : ZicsrOpcode) : emb (OpcodeKind.Zicsr o) = Val.variantOf .OpcodeKind .Zicsr (emb o) := rfl
theorem emb_Zicfiss (o : ZicfissOpcode) : emb (OpcodeKind.Zicfiss o) = Val.variantOf .OpcodeKind .Zicfiss (emb o) := rfl
theorem emb_Zicntr (o : ZicntrOpcode) : emb (OpcodeKind.Zicntr o) = Val.variantOf .OpcodeKind .Zicntr (emb o) := rfl
theorem emb_Priv (o : PrivOpcode) : emb (OpcodeKind.Priv o) = Val.variantOf .OpcodeKind .Priv (emb o) := rfl

/-! ## Formats -/

theorem BaseIOpcode_get_format_eq (md : Build) (n : Nat) (o : BaseIOpcode) :
    call crate md (n + 1) .BaseIOpcode .get_format [emb o] = .val (emb o.getFormat) := by
  cases o <;> rfl

theorem MOpcode_get_format_eq (md : Build) (n : Nat) (o : MOpcode) :
    call crate md (n + 1) .MOpcode .get_format [emb o] = .val (emb o.getFormat) := by
  cases o <;> rfl

theorem AOpcode_get_format_eq (md : Build) (n : Nat) (o : AOpcode) :
    call crate md (n + 1) .AOpcode .get_format [emb o] = .val (emb o.getFormat) := by
  cases o <;> rfl

theorem COpcode_get_format_eq (md : Build) (n : Nat) (o : COpcode) :
    call crate md (n + 1) .COpcode .get_format [emb o] = .val (emb o.getFormat) := by
  cases o <;> rfl

theorem ZifenceiOpcode_get_format_eq (md : Build) (n : Nat) (o : ZifenceiOpcode) :
    call crate md (n + 1) .ZifenceiOpcode .get_format [emb o] = .val (emb o.getFormat) := by
  cases o <;> rfl

theorem ZicbozOpcode_get_format_eq (md : Build) (n : Nat) (o : ZicbozOpcode) :
    call crate md (n + 1) .ZicbozOpcode .get_format [emb o] = .val (emb o.getFormat) := by
  cases o <;> rfl

theorem ZicsrOpcode_get_format_eq (md : Build) (n : Nat) (o : ZicsrOpcode) :
    call crate md (n + 1) .ZicsrOpcode .get_format [emb o] = .val (emb o.getFormat) := by
  cases o <;> rfl

theorem ZicfissOpcode_get_format_eq (md : Build) (n : Nat) (o : ZicfissOpcode) :
    call crate md (n + 1) .ZicfissOpcode .get_format [emb o] = .val (emb o.getFormat) := by
  cases o <;> rfl

theorem ZicntrOpcode_get_format_eq (md : Build) (n : Nat) (o : ZicntrOpcode) :
    call crate md (n + 1) .ZicntrOpcode .get_format [emb o] = .val (emb o.getFormat) := by
  cases o <;> rfl

theorem PrivOpcode_get_format_eq (md : Build) (n : Nat) (o : PrivOpcode) :
    call crate md (n + 1) .PrivOpcode .get_format [emb o] = .val (emb o.getFormat) := by
  cases o <;> rfl

theorem OpcodeKind_get_format_eq (md : Build) (n : Nat) (op : OpcodeKind) :
    call crate md (n + 2) .OpcodeKind .get_format [emb op] = .val (emb op.getFormat) := by
  rcases op with o | o | o | o | o | o | o | o | o | o <;> cases o <;> rfl

/-! ## Operands -/

theorem leave_outV {α : Type} [Emb α] (t : Ty) (x : RustM α) (h : isErr x = false)
    (ht : ∀ a : α, coerce t (emb a) = emb a) :
    leave (.result t) (outV x >>= fun v => .val (.variantOf .Result .Ok v)) = outR x := by
  cases x
  · simp only [outV, outR, bind_val, leave_val, coerce_ok, ht]
  · exact absurd h (by simp [isErr])
  · rfl

theorem coerce_reg (a : Option Nat) : coerce (.option .usize) (emb a) = emb a := by cases a <;> rfl
theorem coerce_imm (a : Option Int) : coerce (.option .i32) (emb a) = emb a := by cases a <;> rfl

theorem u32_parse_rd_eq (md : Build) (n : Nat) (w : BitVec 32) (op : OpcodeKind) :
    call crate md (n + 3) .u32 .parse_rd [.u32 w, emb op] =
      outR (U32.parse_rd w op) := by
  rw [call_u32_parse_rd]
  rcases op with o | o | o | o | o | o | o | o | o | o
  · have h := leave_outV (.option .usize) (BaseI.parse_rd w o) (base_i_bit_32_parse_rd_noErr w o) coerce_reg
    rw [← base_i_bit_32_parse_rd_eq md n w o] at h
    exact h
  · have h := leave_outV (.option .usize) (M.parse_rd w o) (m_extension_bit_32_parse_rd_noErr w o) coerce_reg
    rw [← m_extension_bit_32_parse_rd_eq md n w o] at h
    exact h
  · have h := leave_outV (.option .usize) (A.parse_rd w o) (a_extension_bit_32_parse_rd_noErr w o) coerce_reg
    rw [← a_extension_bit_32_parse_rd_eq md n w o] at h
    exact h
  · rfl
  · have h := leave_outV (.option .usize) (Zifencei.parse_rd w o) (zifencei_extension_bit_32_parse_rd_noErr w o) coerce_reg
    rw [← zifencei_extension_bit_32_parse_rd_eq md n w o] at h
    exact h
  · have h := leave_outV (.option .usize) (Zicboz.parse_rd w o) (zicboz_extension_bit_32_parse_rd_noErr w o) coerce_reg
    rw [← zicboz_extension_bit_32_parse_rd_eq md n w o] at h
    exact h
  · have h := leave_outV (.option .usize) (Zicsr.parse_rd w o) (zicsr_extension_bit_32_parse_rd_noErr w o) coerce_reg
    rw [← zicsr_extension_bit_32_parse_rd_eq md n w o] at h
    exact h
  · have h := leave_outV (.option .usize) (Zicfiss.parse_rd w o) (zicfiss_extension_bit_32_parse_rd_noErr w o) coerce_reg
    rw [← zicfiss_extension_bit_32_parse_rd_eq md n w o] at h
    exact h
  · have h := leave_outV (.option .usize) (Zicntr.parse_rd w o) (zicntr_extension_bit_32_parse_rd_noErr w o) coerce_reg
    rw [← zicntr_extension_bit_32_parse_rd_eq md n w o] at h
    exact h
  · have h := leave_outV (.option .usize) (Priv.parse_rd w o) (priv_extension_bit_32_parse_rd_noErr w o) coerce_reg
    rw [← priv_extension_bit_32_parse_rd_eq md n w o] at h
    exact h

theorem u16_parse_rd_eq (md : Build) (n : Nat) (w : BitVec 16) (op : OpcodeKind) :
    call crate md (n + 3) .u16 .parse_rd [.u16 w, emb op] =
      outR (U16.parse_rd w op) := by
  rw [call_u16_parse_rd]
  rcases op with o | o | o | o | o | o | o | o | o | o
  · rfl
  · rfl
  · rfl
  · have h := leave_outV (.option .usize) (C.parse_rd w o) (c_extension_bit_16_parse_rd_noErr w o) coerce_reg
    rw [← c_extension_bit_16_parse_rd_eq md n w o] at h
    exact h
  · rfl
  · rfl
  · rfl
  · have h := leave_outV (.option .usize) (Zicfiss16.parse_rd w o) (zicfiss_extension_bit_16_parse_rd_noErr w o) coerce_reg
    rw [← zicfiss_extension_bit_16_parse_rd_eq md n w o] at h
    exact h
  · rfl
  · rfl

theorem u32_parse_rs1_eq (md : Build) (n : Nat) (w : BitVec 32) (op : OpcodeKind) :
    call crate md (n + 3) .u32 .parse_rs1 [.u32 w, emb op] =
      outR (U32.parse_rs1 w op) := by
  rw [call_u32_parse_rs1]
  rcases op with o | o | o | o | o | o | o | o | o | o
  · have h := leave_outV (.option .usize) (BaseI.parse_rs1 w o) (base_i_bit_32_parse_rs1_noErr w o) coerce_reg
    rw [← base_i_bit_32_parse_rs1_eq md n w o] at h
    exact h
  · have h := leave_outV (.option .usize) (M.parse_rs1 w o) (m_extension_bit_32_parse_rs1_noErr w o) coerce_reg
    rw [← m_extension_bit_32_parse_rs1_eq md n w o] at h
    exact h
  · have h := leave_outV (.option .usize) (A.parse_rs1 w o) (a_extension_bit_32_parse_rs1_noErr w o) coerce_reg
    rw [← a_extension_bit_32_parse_rs1_eq md n w o] at h
    exact h
  · rfl
  · have h := leave_outV (.option .usize) (Zifencei.parse_rs1 w o) (zifencei_extension_bit_32_parse_rs1_noErr w o) coerce_reg
    rw [← zifencei_extension_bit_32_parse_rs1_eq md n w o] at h
    exact h
  · have h := leave_outV (.option .usize) (Zicboz.parse_rs1 w o) (zicboz_extension_bit_32_parse_rs1_noErr w o) coerce_reg
    rw [← zicboz_extension_bit_32_parse_rs1_eq md n w o] at h
    exact h
  · have h := leave_outV (.option .usize) (Zicsr.parse_rs1 w o) (zicsr_extension_bit_32_parse_rs1_noErr w o) coerce_reg
    rw [← zicsr_extension_bit_32_parse_rs1_eq md n w o] at h
    exact h
  · have h := leave_outV (.option .usize) (Zicfiss.parse_rs1 w o) (zicfiss_extension_bit_32_parse_rs1_noErr w o) coerce_reg
    rw [← zicfiss_extension_bit_32_parse_rs1_eq md n w o] at h
    exact h
  · have h := leave_outV (.option .usize) (Zicntr.parse_rs1 w o) (zicntr_extension_bit_32_parse_rs1_noErr w o) coerce_reg
    rw [← zicntr_extension_bit_32_parse_rs1_eq md n w o] at h
    exact h
  · have h := leave_outV (.option .usize) (Priv.parse_rs1 w o) (priv_extension_bit_32_parse_rs1_noErr w o) coerce_reg
    rw [← priv_extension_bit_32_parse_rs1_eq md n w o] at h
    exact h

theorem u16_parse_rs1_eq (md : Build) (n : Nat) (w : BitVec 16) (op : OpcodeKind) :
    call crate md (n + 3) .u16 .parse_rs1 [.u16 w, emb op] =
      outR (U16.parse_rs1 w op) := by
  rw [call_u16_parse_rs1]
  rcases op with o | o | o | o | o | o | o | o | o | o
  · rfl
  · rfl
  · rfl
  · have h := leave_outV (.option .usize) (C.parse_rs1 w o) (c_extension_bit_16_parse_rs1_noErr w o) coerce_reg
    rw [← c_extension_bit_16_parse_rs1_eq md n w o] at h
    exact h
  · rfl
  · rfl
  · rfl
  · have h := leave_outV (.option .usize) (Zicfiss16.parse_rs1 w o) (zicfiss_extension_bit_16_parse_rs1_noErr w o) coerce_reg
    rw [← zicfiss_extension_bit_16_parse_rs1_eq md n w o] at h
    exact h
  · rfl
  · rfl

theorem u32_parse_rs2_eq (md : Build) (n : Nat) (w : BitVec 32) (op : OpcodeKind) :
    call crate md (n + 3) .u32 .parse_rs2 [.u32 w, emb op] =
      outR (U32.parse_rs2 w op) := by
  rw [call_u32_parse_rs2]
  rcases op with o | o | o | o | o | o | o | o | o | o
  · have h := leave_outV (.option .usize) (BaseI.parse_rs2 w o) (base_i_bit_32_parse_rs2_noErr w o) coerce_reg
    rw [← base_i_bit_32_parse_rs2_eq md n w o] at h
    exact h
  · have h := leave_outV (.option .usize) (M.parse_rs2 w o) (m_extension_bit_32_parse_rs2_noErr w o) coerce_reg
    rw [← m_extension_bit_32_parse_rs2_eq md n w o] at h
    exact h
  · have h := leave_outV (.option .usize) (A.parse_rs2 w o) (a_extension_bit_32_parse_rs2_noErr w o) coerce_reg
    rw [← a_extension_bit_32_parse_rs2_eq md n w o] at h
    exact h
  · rfl
  · have h := leave_outV (.option .usize) (Zifencei.parse_rs2 w o) (zifencei_extension_bit_32_parse_rs2_noErr w o) coerce_reg
    rw [← zifencei_extension_bit_32_parse_rs2_eq md n w o] at h
    exact h
  · have h := leave_outV (.option .usize) (Zicboz.parse_rs2 w o) (zicboz_extension_bit_32_parse_rs2_noErr w o) coerce_reg
    rw [← zicboz_extension_bit_32_parse_rs2_eq md n w o] at h
    exact h
  · have h := leave_outV (.option .usize) (Zicsr.parse_rs2 w o) (zicsr_extension_bit_32_parse_rs2_noErr w o) coerce_reg
    rw [← zicsr_extension_bit_32_parse_rs2_eq md n w o] at h
    exact h
  · have h := leave_outV (.option .usize) (Zicfiss.parse_rs2 w o) (zicfiss_extension_bit_32_parse_rs2_noErr w o) coerce_reg
    rw [← zicfiss_extension_bit_32_parse_rs2_eq md n w o] at h
    exact h
  · have h := leave_outV (.option .usize) (Zicntr.parse_rs2 w o) (zicntr_extension_bit_32_parse_rs2_noErr w o) coerce_reg
    rw [← zicntr_extension_bit_32_parse_rs2_eq md n w o] at h
    exact h
  · have h := leave_outV (.option .usize) (Priv.parse_rs2 w o) (priv_extension_bit_32_parse_rs2_noErr w o) coerce_reg
    rw [← priv_extension_bit_32_parse_rs2_eq md n w o] at h
    exact h

theorem u16_parse_rs2_eq (md : Build) (n : Nat) (w : BitVec 16) (op : OpcodeKind) :
    call crate md (n + 3) .u16 .parse_rs2 [.u16 w, emb op] =
      outR (U16.parse_rs2 w op) := by
  rw [call_u16_parse_rs2]
  rcases op with o | o | o | o | o | o | o | o | o | o
  · rfl
  · rfl
  · rfl
  · have h := leave_outV (.option .usize) (C.parse_rs2 w o) (c_extension_bit_16_parse_rs2_noErr w o) coerce_reg
    rw [← c_extension_bit_16_parse_rs2_eq md n w o] at h
    exact h
  · rfl
  · rfl
  · rfl
  · have h := leave_outV (.option .usize) (Zicfiss16.parse_rs2 w o) (zicfiss_extension_bit_16_parse_rs2_noErr w o) coerce_reg
    rw [← zicfiss_extension_bit_16_parse_rs2_eq md n w o] at h
    exact h
  · rfl
  · rfl

theorem u32_parse_imm_eq (md : Build) (n : Nat) (w : BitVec 32) (op : OpcodeKind) (isa : Isa) :
    call crate md (n + 3) .u32 .parse_imm [.u32 w, emb op, emb isa] =
      outR (U32.parse_imm w op isa) := by
  rw [call_u32_parse_imm]
  rcases op with o | o | o | o | o | o | o | o | o | o
  · have h := leave_outV (.option .i32) (BaseI.parse_imm w o isa) (base_i_bit_32_parse_imm_noErr w o isa) coerce_imm
    rw [← base_i_bit_32_parse_imm_eq md n w o isa] at h
    exact h
  · have h := leave_outV (.option .i32) (M.parse_imm w o) (m_extension_bit_32_parse_imm_noErr w o) coerce_imm
    rw [← m_extension_bit_32_parse_imm_eq md n w o] at h
    exact h
  · have h := leave_outV (.option .i32) (A.parse_imm w o) (a_extension_bit_32_parse_imm_noErr w o) coerce_imm
    rw [← a_extension_bit_32_parse_imm_eq md n w o] at h
    exact h
  · rfl
  · have h := leave_outV (.option .i32) (Zifencei.parse_imm w o) (zifencei_extension_bit_32_parse_imm_noErr w o) coerce_imm
    rw [← zifencei_extension_bit_32_parse_imm_eq md n w o] at h
    exact h
  · have h := leave_outV (.option .i32) (Zicboz.parse_imm w o) (zicboz_extension_bit_32_parse_imm_noErr w o) coerce_imm
    rw [← zicboz_extension_bit_32_parse_imm_eq md n w o] at h
    exact h
  · have h := leave_outV (.option .i32) (Zicsr.parse_imm w o) (zicsr_extension_bit_32_parse_imm_noErr w o) coerce_imm
    rw [← zicsr_extension_bit_32_parse_imm_eq md n w o] at h
    exact h
  · have h := leave_outV (.option .i32) (Zicfiss.parse_imm w o) (zicfiss_extension_bit_32_parse_imm_noErr w o) coerce_imm
    rw [← zicfiss_extension_bit_32_parse_imm_eq md n w o] at h
    exact h
  · have h := leave_outV (.option .i32) (Zicntr.parse_imm w o) (zicntr_extension_bit_32_parse_imm_noErr w o) coerce_imm
    rw [← zicntr_extension_bit_32_parse_imm_eq md n w o] at h
    exact h
  · have h := leave_outV (.option .i32) (Priv.parse_imm w o) (priv_extension_bit_32_parse_imm_noErr w o) coerce_imm
    rw [← priv_extension_bit_32_parse_imm_eq md n w o] at h
    exact h

theorem u16_parse_imm_eq (md : Build) (n : Nat) (w : BitVec 16) (op : OpcodeKind) (isa : Isa) :
    call crate md (n + 3) .u16 .parse_imm [.u16 w, emb op, emb isa] =
      outR (U16.parse_imm w op isa) := by
  rw [call_u16_parse_imm]
  rcases op with o | o | o | o | o | o | o | o | o | o
  · rfl
  · rfl
  · rfl
  · have h := leave_outV (.option .i32) (C.parse_imm w o) (c_extension_bit_16_parse_imm_noErr w o) coerce_imm
    rw [← c_extension_bit_16_parse_imm_eq md n w o] at h
    exact h
  · rfl
  · rfl
  · rfl
  · have h := leave_outV (.option .i32) (Zicfiss16.parse_imm w o) (zicfiss_extension_bit_16_parse_imm_noErr w o) coerce_imm
    rw [← zicfiss_extension_bit_16_parse_imm_eq md n w o] at h
    exact h
  · rfl
  · rfl

/-! ## Opcodes -/

theorem bind_outR {α : Type} [Emb α] (x : RustM α) (c : Id) (f : α → OpcodeKind)
    (h : ∀ a, emb (f a) = .variantOf .OpcodeKind c (emb a)) :
    leave (.result .other) (((outR x >>= questionVal) >>= fun v => .val (.variantOf .OpcodeKind c v)) >>=
      fun v => .val (.variantOf .Result .Ok v)) = outR (x >>= fun a => .ok (f a)) := by
  cases x
  · simp only [outR, bind_val, question_ok, leave_val, coerce_ok, coerce_other, RustM.bind_ok, h]
  · simp only [outR, bind_val, question_err, bind_ret, leave_ret, coerce_err]; rfl
  · rfl

theorem u32_parse_opcode_eq (md : Build) (n : Nat) (w : BitVec 32) (isa : Isa) :
    call crate md (n + 3) .u32 .parse_opcode [.u32 w, emb isa] = outR (U32.parse_opcode w isa) := by
  rw [call_u32_parse_opcode, U32.parse_opcode]
  simp only [u32_parse_opcode, run, bindParams, Option.map_some, coerce_u32_u32, coerce_other, eval, evalStmts,
    evalArgs, Env.get, reduceCtorEq, ite_true, ite_false, bind_val, typeOf_u32, u32_parse_extension_eq]
  cases U32.parse_extension w with
  | panic => rfl
  | err e => cases e <;> rfl
  | ok e =>
    cases e
    · have h := bind_outR (BaseI.parse_opcode w isa) .BaseI OpcodeKind.BaseI (fun _ => rfl)
      rw [← base_i_bit_32_parse_opcode_eq md n w isa] at h
      generalize call crate md (n + 2) = c at h ⊢
      exact h
    · have h := bind_outR (M.parse_opcode w isa) .M OpcodeKind.M (fun _ => rfl)
      rw [← m_extension_bit_32_parse_opcode_eq md n w isa] at h
      generalize call crate md (n + 2) = c at h ⊢
      exact h
    · have h := bind_outR (A.parse_opcode w isa) .A OpcodeKind.A (fun _ => rfl)
      rw [← a_extension_bit_32_parse_opcode_eq md n w isa] at h
      generalize call crate md (n + 2) = c at h ⊢
      exact h
    · rfl
    · have h := bind_outR (Zifencei.parse_opcode w) .Zifencei OpcodeKind.Zifencei (fun _ => rfl)
      rw [← zifencei_extension_bit_32_parse_opcode_eq md n w] at h
      generalize call crate md (n + 2) = c at h ⊢
      exact h
    · have h := bind_outR (Zicboz.parse_opcode w) .Zicboz OpcodeKind.Zicboz (fun _ => rfl)
      rw [← zicboz_extension_bit_32_parse_opcode_eq md n w] at h
      generalize call crate md (n + 2) = c at h ⊢
      exact h
    · have h := bind_outR (Zicsr.parse_opcode w) .Zicsr OpcodeKind.Zicsr (fun _ => rfl)
      rw [← zicsr_extension_bit_32_parse_opcode_eq md n w] at h
      generalize call crate md (n + 2) = c at h ⊢
      exact h
    · have h := bind_outR (Zicfiss.parse_opcode w) .Zicfiss OpcodeKind.Zicfiss (fun _ => rfl)
      rw [← zicfiss_extension_bit_32_parse_opcode_eq md n w] at h
      generalize call crate md (n + 2) = c at h ⊢
      exact h
    · have h := bind_outR (Zicntr.parse_opcode w) .Zicntr OpcodeKind.Zicntr (fun _ => rfl)
      rw [← zicntr_extension_bit_32_parse_opcode_eq md n w] at h
      generalize call crate md (n + 2) = c at h ⊢
      exact h
    · have h := bind_outR (Priv.parse_opcode w) .Priv OpcodeKind.Priv (fun _ => rfl)
      rw [← priv_extension_bit_32_parse_opcode_eq md n w] at h
      generalize call crate md (n + 2) = c at h ⊢
      exact h

theorem u16_parse_opcode_eq (md : Build) (n : Nat) (w : BitVec 16) (isa : Isa) :
    call crate md (n + 4) .u16 .parse_opcode [.u16 w, emb isa] = outR (U16.parse_opcode w isa) := by
  rw [call_u16_parse_opcode, U16.parse_opcode]
  simp only [u16_parse_opcode, run, bindParams, Option.map_some, coerce_u16_u16, coerce_other, eval, evalStmts,
    evalArgs, Env.get, reduceCtorEq, ite_true, ite_false, bind_val, typeOf_u16, u16_parse_extension_eq]
  cases U16.parse_extension w with
  | panic => rfl
  | err e => cases e <;> rfl
  | ok e =>
    cases e
    · rfl
    · rfl
    · rfl
    · have h := bind_outR (C.parse_opcode w isa) .C OpcodeKind.C (fun _ => rfl)
      rw [← c_extension_bit_16_parse_opcode_eq md n w isa] at h
      generalize call crate md (n + 3) = c at h ⊢
      exact h
    · rfl
    · rfl
    · rfl
    · have h := bind_outR (Zicfiss16.parse_opcode w isa) .Zicfiss OpcodeKind.Zicfiss (fun _ => rfl)
      rw [← zicfiss_extension_bit_16_parse_opcode_eq md (n + 1) w isa] at h
      generalize call crate md (n + 3) = c at h ⊢
      exact h
    · rfl
    · rfl

/-! ## Decoding -/

theorem question_outR {α : Type} [Emb α] (x : RustM α) {β : Type} (k : Val → Out β) :
    ((outR x >>= questionVal) >>= k) = match x with
      | .ok a => k (emb a)
      | .err e => .ret (.variantOf .Result .Err (emb e))
      | .panic => .panic := by
  cases x <;> rfl

theorem typeOf_emb (op : OpcodeKind) : typeOf (emb op) = some .OpcodeKind := by cases op <;> rfl

/-- Evaluates the body of `decode`. -/
macro "decode_step" "[" ls:Lean.Parser.Tactic.simpLemma,* "]" : tactic =>
  `(tactic| simp -implicitDefEqProofs only [run, bindParams, Option.map_some, coerce_u32_u32, coerce_u16_u16,
    coerce_other, coerce_reg, coerce_imm, eval, evalStmts, evalArgs, evalFields, Env.get, reduceCtorEq, ite_true,
    ite_false, bind_val, bind_ret, bind_panic, typeOf_u32, typeOf_u16, typeOf_emb, leave_val, leave_ret, leave_panic,
    coerce_ok, coerce_err, question_outR, question_ok, question_err, OpcodeKind_get_format_eq, RustM.bind_ok, RustM.bind_err, RustM.bind_panic,
    outR, $ls,*])

theorem u32_decode_eq (md : Build) (n : Nat) (w : BitVec 32) (isa : Isa) :
    call crate md (n + 4) .u32 .decode [.u32 w, emb isa] = outR (U32.decode w isa) := by
  rw [call_u32_decode, U32.decode]
  simp only [u32_decode, run, bindParams, Option.map_some, coerce_u32_u32, coerce_other]
  simp only [eval, evalStmts, evalArgs, Env.get, reduceCtorEq, ite_true, ite_false, bind_val, typeOf_u32,
    u32_parse_opcode_eq, question_outR]
  cases U32.parse_opcode w isa with
  | err e => decode_step []
  | panic => rfl
  | ok op =>
    decode_step [u32_parse_rd_eq]
    cases U32.parse_rd w op with
    | err e => decode_step []
    | panic => rfl
    | ok rd =>
      decode_step [u32_parse_rs1_eq]
      cases U32.parse_rs1 w op with
      | err e => decode_step []
      | panic => rfl
      | ok rs1 =>
        decode_step [u32_parse_rs2_eq]
        cases U32.parse_rs2 w op with
        | err e => decode_step []
        | panic => rfl
        | ok rs2 =>
          decode_step [u32_parse_imm_eq]
          cases U32.parse_imm w op isa with
          | err e => decode_step []
          | panic => rfl
          | ok imm => decode_step []; rfl

theorem u16_decode_eq (md : Build) (n : Nat) (w : BitVec 16) (isa : Isa) :
    call crate md (n + 5) .u16 .decode [.u16 w, emb isa] = outR (U16.decode w isa) := by
  rw [call_u16_decode, U16.decode]
  simp only [u16_decode, run, bindParams, Option.map_some, coerce_u16_u16, coerce_other]
  simp only [eval, evalStmts, eq_u16_lit, cond_decide, bind_ite, bind_ret, leave_ite, leave_ret, coerce_err, evalArgs, Env.get, reduceCtorEq, ite_true, ite_false, bind_val, typeOf_u16,
    u16_parse_opcode_eq, question_outR]
  simp only [show (BitVec.ofNat 16 0).toNat = 0 from rfl]
  split
  · rfl
  cases U16.parse_opcode w isa with
  | err e => decode_step []
  | panic => rfl
  | ok op =>
    decode_step [u16_parse_rd_eq md (n + 1)]
    cases U16.parse_rd w op with
    | err e => decode_step []
    | panic => rfl
    | ok rd =>
      decode_step [u16_parse_rs1_eq md (n + 1)]
      cases U16.parse_rs1 w op with
      | err e => decode_step []
      | panic => rfl
      | ok rs1 =>
        decode_step [u16_parse_rs2_eq md (n + 1)]
        cases U16.parse_rs2 w op with
        | err e => decode_step []
        | panic => rfl
        | ok rs2 =>
          decode_step [u16_parse_imm_eq md (n + 1)]
          cases U16.parse_imm w op isa with
          | err e => decode_step []
          | panic => rfl
          | ok imm => decode_step []; rfl


theorem Instruction_try_from_eq (md : Build) (n : Nat) (x : Nat) :
    call crate md (n + 6) .Instruction .try_from [.usize x] = outR (try_from x) := by
  rw [call_Instruction_try_from, try_from]
  simp only [Instruction_try_from, run, bindParams, Option.map_some, coerce_usize_usize, coerce_other]
  simp only [eval, evalArgs, Env.get, ite_true, bind_val, and_usize_lit, eq_usize_lit, cond_decide, leave_ite,
    try_u32_usize, try_u16_usize, tryU32, tryU16]
  split
  · simp only [inRange]
    split
    · simp only [unwrap_Ok, bind_val, typeOf_u32, RustM.bind_ok, ← emb_rv64, u32_decode_eq md (n + 1), leave_outR]
    · rfl
  · simp only [inRange]
    split
    · simp only [unwrap_Ok, bind_val, typeOf_u16, RustM.bind_ok, ← emb_rv64, u16_decode_eq, leave_outR]
    · rfl

end Raki.Source
