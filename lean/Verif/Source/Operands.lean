import Verif.Source.Tactics
/-!
# Running the operand parsers of the source
-/

namespace Raki.Source
open Raki.Spec

set_option linter.unusedSimpArgs false
set_option maxHeartbeats 1000000

theorem add8 (md : Mode) (w e s : Nat) (h : e + 1 - s ≤ 8) :
    binOp md .add (.u16 (BitVec.ofNat 16 (fld w e s))) (.lit 8) =
      .val (.u16 (BitVec.ofNat 16 (fld w e s + 8))) := by
  have := fld_lt w e s
  have h2 : 2 ^ (e + 1 - s) ≤ 2 ^ 8 := Nat.pow_le_pow_right (by decide) h
  cases md
  · rw [add_u16_lit_checked, addU, if_pos (by simp only [BitVec.toNat_ofNat]; omega)]
    simp only [ofRust_ok, BitVec.ofNat_add]
  · rw [add_u16_lit_wrapping]
    simp only [Release.addU, ofRust_ok, BitVec.ofNat_add]

theorem addU_fld (w e s : Nat) (h : e + 1 - s ≤ 8) :
    addU (BitVec.ofNat 16 (fld w e s)) 8 = .ok (BitVec.ofNat 16 (fld w e s + 8)) := by
  have := fld_lt w e s
  have h2 : 2 ^ (e + 1 - s) ≤ 2 ^ 8 := Nat.pow_le_pow_right (by decide) h
  rw [show (8 : BitVec 16) = BitVec.ofNat 16 8 from rfl, addU,
    if_pos (by simp only [BitVec.toNat_ofNat]; omega)]
  simp only [BitVec.ofNat_add]

theorem base_i_bit_32_parse_rd_eq (md : Build) (n : Nat) (w : BitVec 32) (op : BaseIOpcode) :
    call crate md (n + 2) .base_i_bit_32 .parse_rd [.u32 w, emb op] = outV (BaseI.parse_rd w op) := by
  rw [call_base_i_bit_32_parse_rd]
  simp only [base_i_bit_32_parse_rd, BaseI.parse_rd]
  fields
  rl []
  cases op <;> rfl

theorem base_i_bit_32_parse_rd_noErr (w : BitVec 32) (op : BaseIOpcode) :
    isErr (BaseI.parse_rd w op) = false := by
  simp only [BaseI.parse_rd]
  fields
  cases op <;> rfl

theorem base_i_bit_32_parse_rs1_eq (md : Build) (n : Nat) (w : BitVec 32) (op : BaseIOpcode) :
    call crate md (n + 2) .base_i_bit_32 .parse_rs1 [.u32 w, emb op] = outV (BaseI.parse_rs1 w op) := by
  rw [call_base_i_bit_32_parse_rs1]
  simp only [base_i_bit_32_parse_rs1, BaseI.parse_rs1]
  fields
  rl []
  cases op <;> rfl

theorem base_i_bit_32_parse_rs1_noErr (w : BitVec 32) (op : BaseIOpcode) :
    isErr (BaseI.parse_rs1 w op) = false := by
  simp only [BaseI.parse_rs1]
  fields
  cases op <;> rfl

theorem base_i_bit_32_parse_rs2_eq (md : Build) (n : Nat) (w : BitVec 32) (op : BaseIOpcode) :
    call crate md (n + 2) .base_i_bit_32 .parse_rs2 [.u32 w, emb op] = outV (BaseI.parse_rs2 w op) := by
  rw [call_base_i_bit_32_parse_rs2]
  simp only [base_i_bit_32_parse_rs2, BaseI.parse_rs2]
  fields
  rl []
  cases op <;> rfl

theorem base_i_bit_32_parse_rs2_noErr (w : BitVec 32) (op : BaseIOpcode) :
    isErr (BaseI.parse_rs2 w op) = false := by
  simp only [BaseI.parse_rs2]
  fields
  cases op <;> rfl

theorem m_extension_bit_32_parse_rd_eq (md : Build) (n : Nat) (w : BitVec 32) (op : MOpcode) :
    call crate md (n + 2) .m_extension_bit_32 .parse_rd [.u32 w, emb op] = outV (M.parse_rd w op) := by
  rw [call_m_extension_bit_32_parse_rd]
  simp only [m_extension_bit_32_parse_rd, M.parse_rd]
  fields
  rl []
  cases op <;> rfl

theorem m_extension_bit_32_parse_rd_noErr (w : BitVec 32) (op : MOpcode) :
    isErr (M.parse_rd w op) = false := by
  simp only [M.parse_rd]
  fields
  cases op <;> rfl

theorem m_extension_bit_32_parse_rs1_eq (md : Build) (n : Nat) (w : BitVec 32) (op : MOpcode) :
    call crate md (n + 2) .m_extension_bit_32 .parse_rs1 [.u32 w, emb op] = outV (M.parse_rs1 w op) := by
  rw [call_m_extension_bit_32_parse_rs1]
  simp only [m_extension_bit_32_parse_rs1, M.parse_rs1]
  fields
  rl []
  cases op <;> rfl

theorem m_extension_bit_32_parse_rs1_noErr (w : BitVec 32) (op : MOpcode) :
    isErr (M.parse_rs1 w op) = false := by
  simp only [M.parse_rs1]
  fields
  cases op <;> rfl

theorem m_extension_bit_32_parse_rs2_eq (md : Build) (n : Nat) (w : BitVec 32) (op : MOpcode) :
    call crate md (n + 2) .m_extension_bit_32 .parse_rs2 [.u32 w, emb op] = outV (M.parse_rs2 w op) := by
  rw [call_m_extension_bit_32_parse_rs2]
  simp only [m_extension_bit_32_parse_rs2, M.parse_rs2]
  fields
  rl []
  cases op <;> rfl

theorem m_extension_bit_32_parse_rs2_noErr (w : BitVec 32) (op : MOpcode) :
    isErr (M.parse_rs2 w op) = false := by
  simp only [M.parse_rs2]
  fields
  cases op <;> rfl

theorem a_extension_bit_32_parse_rd_eq (md : Build) (n : Nat) (w : BitVec 32) (op : AOpcode) :
    call crate md (n + 2) .a_extension_bit_32 .parse_rd [.u32 w, emb op] = outV (A.parse_rd w op) := by
  rw [call_a_extension_bit_32_parse_rd]
  simp only [a_extension_bit_32_parse_rd, A.parse_rd]
  fields
  rl []
  cases op <;> rfl

theorem a_extension_bit_32_parse_rd_noErr (w : BitVec 32) (op : AOpcode) :
    isErr (A.parse_rd w op) = false := by
  simp only [A.parse_rd]
  fields
  cases op <;> rfl

theorem a_extension_bit_32_parse_rs1_eq (md : Build) (n : Nat) (w : BitVec 32) (op : AOpcode) :
    call crate md (n + 2) .a_extension_bit_32 .parse_rs1 [.u32 w, emb op] = outV (A.parse_rs1 w op) := by
  rw [call_a_extension_bit_32_parse_rs1]
  simp only [a_extension_bit_32_parse_rs1, A.parse_rs1]
  fields
  rl []
  cases op <;> rfl

theorem a_extension_bit_32_parse_rs1_noErr (w : BitVec 32) (op : AOpcode) :
    isErr (A.parse_rs1 w op) = false := by
  simp only [A.parse_rs1]
  fields
  cases op <;> rfl

theorem a_extension_bit_32_parse_rs2_eq (md : Build) (n : Nat) (w : BitVec 32) (op : AOpcode) :
    call crate md (n + 2) .a_extension_bit_32 .parse_rs2 [.u32 w, emb op] = outV (A.parse_rs2 w op) := by
  rw [call_a_extension_bit_32_parse_rs2]
  simp only [a_extension_bit_32_parse_rs2, A.parse_rs2]
  fields
  rl []
  cases op <;> rfl

theorem a_extension_bit_32_parse_rs2_noErr (w : BitVec 32) (op : AOpcode) :
    isErr (A.parse_rs2 w op) = false := by
  simp only [A.parse_rs2]
  fields
  cases op <;> rfl

theorem zifencei_extension_bit_32_parse_rd_eq (md : Build) (n : Nat) (w : BitVec 32) (op : ZifenceiOpcode) :
    call crate md (n + 2) .zifencei_extension_bit_32 .parse_rd [.u32 w, emb op] = outV (Zifencei.parse_rd w op) := by
  rw [call_zifencei_extension_bit_32_parse_rd]
  simp only [zifencei_extension_bit_32_parse_rd, Zifencei.parse_rd]
  fields
  rl []
  cases op <;> rfl

theorem zifencei_extension_bit_32_parse_rd_noErr (w : BitVec 32) (op : ZifenceiOpcode) :
    isErr (Zifencei.parse_rd w op) = false := by
  simp only [Zifencei.parse_rd]
  fields
  cases op <;> rfl

theorem zifencei_extension_bit_32_parse_rs1_eq (md : Build) (n : Nat) (w : BitVec 32) (op : ZifenceiOpcode) :
    call crate md (n + 2) .zifencei_extension_bit_32 .parse_rs1 [.u32 w, emb op] = outV (Zifencei.parse_rs1 w op) := by
  rw [call_zifencei_extension_bit_32_parse_rs1]
  simp only [zifencei_extension_bit_32_parse_rs1, Zifencei.parse_rs1]
  fields
  rl []
  cases op <;> rfl

theorem zifencei_extension_bit_32_parse_rs1_noErr (w : BitVec 32) (op : ZifenceiOpcode) :
    isErr (Zifencei.parse_rs1 w op) = false := by
  simp only [Zifencei.parse_rs1]
  fields
  cases op <;> rfl

theorem zifencei_extension_bit_32_parse_rs2_eq (md : Build) (n : Nat) (w : BitVec 32) (op : ZifenceiOpcode) :
    call crate md (n + 2) .zifencei_extension_bit_32 .parse_rs2 [.u32 w, emb op] = outV (Zifencei.parse_rs2 w op) := by
  cases op <;> rfl

theorem zifencei_extension_bit_32_parse_rs2_noErr (w : BitVec 32) (op : ZifenceiOpcode) :
    isErr (Zifencei.parse_rs2 w op) = false := by
  cases op <;> rfl

theorem zicboz_extension_bit_32_parse_rd_eq (md : Build) (n : Nat) (w : BitVec 32) (op : ZicbozOpcode) :
    call crate md (n + 2) .zicboz_extension_bit_32 .parse_rd [.u32 w, emb op] = outV (Zicboz.parse_rd w op) := by
  cases op <;> rfl

theorem zicboz_extension_bit_32_parse_rd_noErr (w : BitVec 32) (op : ZicbozOpcode) :
    isErr (Zicboz.parse_rd w op) = false := by
  cases op <;> rfl

theorem zicboz_extension_bit_32_parse_rs1_eq (md : Build) (n : Nat) (w : BitVec 32) (op : ZicbozOpcode) :
    call crate md (n + 2) .zicboz_extension_bit_32 .parse_rs1 [.u32 w, emb op] = outV (Zicboz.parse_rs1 w op) := by
  rw [call_zicboz_extension_bit_32_parse_rs1]
  simp only [zicboz_extension_bit_32_parse_rs1, Zicboz.parse_rs1]
  fields
  rl []
  cases op <;> rfl

theorem zicboz_extension_bit_32_parse_rs1_noErr (w : BitVec 32) (op : ZicbozOpcode) :
    isErr (Zicboz.parse_rs1 w op) = false := by
  simp only [Zicboz.parse_rs1]
  fields
  cases op <;> rfl

theorem zicboz_extension_bit_32_parse_rs2_eq (md : Build) (n : Nat) (w : BitVec 32) (op : ZicbozOpcode) :
    call crate md (n + 2) .zicboz_extension_bit_32 .parse_rs2 [.u32 w, emb op] = outV (Zicboz.parse_rs2 w op) := by
  cases op <;> rfl

theorem zicboz_extension_bit_32_parse_rs2_noErr (w : BitVec 32) (op : ZicbozOpcode) :
    isErr (Zicboz.parse_rs2 w op) = false := by
  cases op <;> rfl

theorem zicsr_extension_bit_32_parse_rd_eq (md : Build) (n : Nat) (w : BitVec 32) (op : ZicsrOpcode) :
    call crate md (n + 2) .zicsr_extension_bit_32 .parse_rd [.u32 w, emb op] = outV (Zicsr.parse_rd w op) := by
  rw [call_zicsr_extension_bit_32_parse_rd]
  simp only [zicsr_extension_bit_32_parse_rd, Zicsr.parse_rd]
  fields
  rl []
  cases op <;> rfl

theorem zicsr_extension_bit_32_parse_rd_noErr (w : BitVec 32) (op : ZicsrOpcode) :
    isErr (Zicsr.parse_rd w op) = false := by
  simp only [Zicsr.parse_rd]
  fields
  cases op <;> rfl

theorem zicsr_extension_bit_32_parse_rs1_eq (md : Build) (n : Nat) (w : BitVec 32) (op : ZicsrOpcode) :
    call crate md (n + 2) .zicsr_extension_bit_32 .parse_rs1 [.u32 w, emb op] = outV (Zicsr.parse_rs1 w op) := by
  rw [call_zicsr_extension_bit_32_parse_rs1]
  simp only [zicsr_extension_bit_32_parse_rs1, Zicsr.parse_rs1]
  fields
  rl []
  cases op <;> rfl

theorem zicsr_extension_bit_32_parse_rs1_noErr (w : BitVec 32) (op : ZicsrOpcode) :
    isErr (Zicsr.parse_rs1 w op) = false := by
  simp only [Zicsr.parse_rs1]
  fields
  cases op <;> rfl

theorem zicsr_extension_bit_32_parse_rs2_eq (md : Build) (n : Nat) (w : BitVec 32) (op : ZicsrOpcode) :
    call crate md (n + 2) .zicsr_extension_bit_32 .parse_rs2 [.u32 w, emb op] = outV (Zicsr.parse_rs2 w op) := by
  rw [call_zicsr_extension_bit_32_parse_rs2]
  simp only [zicsr_extension_bit_32_parse_rs2, Zicsr.parse_rs2]
  fields
  rl []
  cases op <;> rfl

theorem zicsr_extension_bit_32_parse_rs2_noErr (w : BitVec 32) (op : ZicsrOpcode) :
    isErr (Zicsr.parse_rs2 w op) = false := by
  simp only [Zicsr.parse_rs2]
  fields
  cases op <;> rfl

theorem zicfiss_extension_bit_32_parse_rd_eq (md : Build) (n : Nat) (w : BitVec 32) (op : ZicfissOpcode) :
    call crate md (n + 2) .zicfiss_extension_bit_32 .parse_rd [.u32 w, emb op] = outV (Zicfiss.parse_rd w op) := by
  rw [call_zicfiss_extension_bit_32_parse_rd]
  simp only [zicfiss_extension_bit_32_parse_rd, Zicfiss.parse_rd]
  fields
  rl []
  cases op <;> rfl

theorem zicfiss_extension_bit_32_parse_rd_noErr (w : BitVec 32) (op : ZicfissOpcode) :
    isErr (Zicfiss.parse_rd w op) = false := by
  simp only [Zicfiss.parse_rd]
  fields
  cases op <;> rfl

theorem zicfiss_extension_bit_32_parse_rs1_eq (md : Build) (n : Nat) (w : BitVec 32) (op : ZicfissOpcode) :
    call crate md (n + 2) .zicfiss_extension_bit_32 .parse_rs1 [.u32 w, emb op] = outV (Zicfiss.parse_rs1 w op) := by
  rw [call_zicfiss_extension_bit_32_parse_rs1]
  simp only [zicfiss_extension_bit_32_parse_rs1, Zicfiss.parse_rs1]
  fields
  rl []
  cases op <;> rfl

theorem zicfiss_extension_bit_32_parse_rs1_noErr (w : BitVec 32) (op : ZicfissOpcode) :
    isErr (Zicfiss.parse_rs1 w op) = false := by
  simp only [Zicfiss.parse_rs1]
  fields
  cases op <;> rfl

theorem zicfiss_extension_bit_32_parse_rs2_eq (md : Build) (n : Nat) (w : BitVec 32) (op : ZicfissOpcode) :
    call crate md (n + 2) .zicfiss_extension_bit_32 .parse_rs2 [.u32 w, emb op] = outV (Zicfiss.parse_rs2 w op) := by
  rw [call_zicfiss_extension_bit_32_parse_rs2]
  simp only [zicfiss_extension_bit_32_parse_rs2, Zicfiss.parse_rs2]
  fields
  rl []
  cases op <;> rfl

theorem zicfiss_extension_bit_32_parse_rs2_noErr (w : BitVec 32) (op : ZicfissOpcode) :
    isErr (Zicfiss.parse_rs2 w op) = false := by
  simp only [Zicfiss.parse_rs2]
  fields
  cases op <;> rfl

theorem zicntr_extension_bit_32_parse_rd_eq (md : Build) (n : Nat) (w : BitVec 32) (op : ZicntrOpcode) :
    call crate md (n + 2) .zicntr_extension_bit_32 .parse_rd [.u32 w, emb op] = outV (Zicntr.parse_rd w op) := by
  rw [call_zicntr_extension_bit_32_parse_rd]
  simp only [zicntr_extension_bit_32_parse_rd, Zicntr.parse_rd]
  fields
  rl []
  cases op <;> rfl

theorem zicntr_extension_bit_32_parse_rd_noErr (w : BitVec 32) (op : ZicntrOpcode) :
    isErr (Zicntr.parse_rd w op) = false := by
  simp only [Zicntr.parse_rd]
  fields
  cases op <;> rfl

theorem zicntr_extension_bit_32_parse_rs1_eq (md : Build) (n : Nat) (w : BitVec 32) (op : ZicntrOpcode) :
    call crate md (n + 2) .zicntr_extension_bit_32 .parse_rs1 [.u32 w, emb op] = outV (Zicntr.parse_rs1 w op) := by
  cases op <;> rfl

theorem zicntr_extension_bit_32_parse_rs1_noErr (w : BitVec 32) (op : ZicntrOpcode) :
    isErr (Zicntr.parse_rs1 w op) = false := by
  cases op <;> rfl

theorem zicntr_extension_bit_32_parse_rs2_eq (md : Build) (n : Nat) (w : BitVec 32) (op : ZicntrOpcode) :
    call crate md (n + 2) .zicntr_extension_bit_32 .parse_rs2 [.u32 w, emb op] = outV (Zicntr.parse_rs2 w op) := by
  cases op <;> rfl

theorem zicntr_extension_bit_32_parse_rs2_noErr (w : BitVec 32) (op : ZicntrOpcode) :
    isErr (Zicntr.parse_rs2 w op) = false := by
  cases op <;> rfl

theorem priv_extension_bit_32_parse_rd_eq (md : Build) (n : Nat) (w : BitVec 32) (op : PrivOpcode) :
    call crate md (n + 2) .priv_extension_bit_32 .parse_rd [.u32 w, emb op] = outV (Priv.parse_rd w op) := by
  cases op <;> rfl

theorem priv_extension_bit_32_parse_rd_noErr (w : BitVec 32) (op : PrivOpcode) :
    isErr (Priv.parse_rd w op) = false := by
  cases op <;> rfl

theorem priv_extension_bit_32_parse_rs1_eq (md : Build) (n : Nat) (w : BitVec 32) (op : PrivOpcode) :
    call crate md (n + 2) .priv_extension_bit_32 .parse_rs1 [.u32 w, emb op] = outV (Priv.parse_rs1 w op) := by
  rw [call_priv_extension_bit_32_parse_rs1]
  simp only [priv_extension_bit_32_parse_rs1, Priv.parse_rs1]
  fields
  rl []
  cases op <;> rfl

theorem priv_extension_bit_32_parse_rs1_noErr (w : BitVec 32) (op : PrivOpcode) :
    isErr (Priv.parse_rs1 w op) = false := by
  simp only [Priv.parse_rs1]
  fields
  cases op <;> rfl

theorem priv_extension_bit_32_parse_rs2_eq (md : Build) (n : Nat) (w : BitVec 32) (op : PrivOpcode) :
    call crate md (n + 2) .priv_extension_bit_32 .parse_rs2 [.u32 w, emb op] = outV (Priv.parse_rs2 w op) := by
  rw [call_priv_extension_bit_32_parse_rs2]
  simp only [priv_extension_bit_32_parse_rs2, Priv.parse_rs2]
  fields
  rl []
  cases op <;> rfl

theorem priv_extension_bit_32_parse_rs2_noErr (w : BitVec 32) (op : PrivOpcode) :
    isErr (Priv.parse_rs2 w op) = false := by
  simp only [Priv.parse_rs2]
  fields
  cases op <;> rfl

theorem c_extension_bit_16_parse_rd_eq (md : Build) (n : Nat) (w : BitVec 16) (op : COpcode) :
    call crate md (n + 2) .c_extension_bit_16 .parse_rd [.u16 w, emb op] = outV (C.parse_rd w op) := by
  rw [call_c_extension_bit_16_parse_rd]
  simp only [c_extension_bit_16_parse_rd, C.parse_rd]
  fields
  simp only [addU_fld, Nat.reduceLeDiff, Nat.reduceSub, Nat.reduceAdd, RustM.bind_ok]
  rl [add8]
  cases op <;> rfl

theorem c_extension_bit_16_parse_rd_noErr (w : BitVec 16) (op : COpcode) :
    isErr (C.parse_rd w op) = false := by
  simp only [C.parse_rd]
  fields
  simp only [addU_fld, Nat.reduceLeDiff, Nat.reduceSub, Nat.reduceAdd, RustM.bind_ok]
  cases op <;> rfl

theorem c_extension_bit_16_parse_rs1_eq (md : Build) (n : Nat) (w : BitVec 16) (op : COpcode) :
    call crate md (n + 2) .c_extension_bit_16 .parse_rs1 [.u16 w, emb op] = outV (C.parse_rs1 w op) := by
  rw [call_c_extension_bit_16_parse_rs1]
  simp only [c_extension_bit_16_parse_rs1, C.parse_rs1]
  fields
  simp only [addU_fld, Nat.reduceLeDiff, Nat.reduceSub, Nat.reduceAdd, RustM.bind_ok]
  rl [add8]
  cases op <;> rfl

theorem c_extension_bit_16_parse_rs1_noErr (w : BitVec 16) (op : COpcode) :
    isErr (C.parse_rs1 w op) = false := by
  simp only [C.parse_rs1]
  fields
  simp only [addU_fld, Nat.reduceLeDiff, Nat.reduceSub, Nat.reduceAdd, RustM.bind_ok]
  cases op <;> rfl

theorem c_extension_bit_16_parse_rs2_eq (md : Build) (n : Nat) (w : BitVec 16) (op : COpcode) :
    call crate md (n + 2) .c_extension_bit_16 .parse_rs2 [.u16 w, emb op] = outV (C.parse_rs2 w op) := by
  rw [call_c_extension_bit_16_parse_rs2]
  simp only [c_extension_bit_16_parse_rs2, C.parse_rs2]
  fields
  simp only [addU_fld, Nat.reduceLeDiff, Nat.reduceSub, Nat.reduceAdd, RustM.bind_ok]
  rl [add8]
  cases op <;> rfl

theorem c_extension_bit_16_parse_rs2_noErr (w : BitVec 16) (op : COpcode) :
    isErr (C.parse_rs2 w op) = false := by
  simp only [C.parse_rs2]
  fields
  simp only [addU_fld, Nat.reduceLeDiff, Nat.reduceSub, Nat.reduceAdd, RustM.bind_ok]
  cases op <;> rfl

theorem zicfiss_extension_bit_16_parse_rd_eq (md : Build) (n : Nat) (w : BitVec 16) (op : ZicfissOpcode) :
    call crate md (n + 2) .zicfiss_extension_bit_16 .parse_rd [.u16 w, emb op] = outV (Zicfiss16.parse_rd w op) := by
  cases op <;> rfl

theorem zicfiss_extension_bit_16_parse_rd_noErr (w : BitVec 16) (op : ZicfissOpcode) :
    isErr (Zicfiss16.parse_rd w op) = false := by
  cases op <;> rfl

theorem zicfiss_extension_bit_16_parse_rs1_eq (md : Build) (n : Nat) (w : BitVec 16) (op : ZicfissOpcode) :
    call crate md (n + 2) .zicfiss_extension_bit_16 .parse_rs1 [.u16 w, emb op] = outV (Zicfiss16.parse_rs1 w op) := by
  cases op <;> rfl

theorem zicfiss_extension_bit_16_parse_rs1_noErr (w : BitVec 16) (op : ZicfissOpcode) :
    isErr (Zicfiss16.parse_rs1 w op) = false := by
  cases op <;> rfl

theorem zicfiss_extension_bit_16_parse_rs2_eq (md : Build) (n : Nat) (w : BitVec 16) (op : ZicfissOpcode) :
    call crate md (n + 2) .zicfiss_extension_bit_16 .parse_rs2 [.u16 w, emb op] = outV (Zicfiss16.parse_rs2 w op) := by
  cases op <;> rfl

theorem zicfiss_extension_bit_16_parse_rs2_noErr (w : BitVec 16) (op : ZicfissOpcode) :
    isErr (Zicfiss16.parse_rs2 w op) = false := by
  cases op <;> rfl

end Raki.Source
