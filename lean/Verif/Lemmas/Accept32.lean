import Verif.Lemmas.Opcode32
/-!
# Evaluation of the 32-bit decoder on words of a known shape
-/

namespace Raki

open Spec

set_option linter.unusedSimpArgs false

theorem fld_31_25 (w : BitVec 32) : fld w.toNat 31 25 = fld w.toNat 31 20 / 32 := by
  have := w.isLt
  simp only [fld]; omega

theorem fld_24_20 (w : BitVec 32) : fld w.toNat 24 20 = fld w.toNat 31 20 % 32 := by
  have := w.isLt
  simp only [fld]; omega

theorem acc_BaseI (w : BitVec 32) (isa : Isa) (o : BaseIOpcode)
    (h : accepts32 isa w.toNat (.BaseI o)) : U32.parse_opcode w isa = .ok (.BaseI o) := by
  have h7 := fld_31_25 w
  have h2 := fld_24_20 w
  unfold U32.parse_opcode U32.parse_extension BaseI.parse_opcode
  fields32
  cases isa <;> cases o
  all_goals simp [accepts32, row32, gated64, fixed32] at h
  all_goals first
    | (simp [h, only_rv64]; done)
    | (rcases h with ⟨ha, hb, hc⟩; rw [hc] at h7 h2; simp [ha, hb, h7, h2, only_rv64]; done)
    | (rcases h with ⟨ha, hb, hc | hc⟩ <;> simp [ha, hb, hc, only_rv64])

theorem acc_M (w : BitVec 32) (isa : Isa) (o : MOpcode)
    (h : accepts32 isa w.toNat (.M o)) : U32.parse_opcode w isa = .ok (.M o) := by
  unfold U32.parse_opcode U32.parse_extension M.parse_opcode
  fields32
  cases isa <;> cases o
  all_goals simp [accepts32, row32, gated64, fixed32] at h
  all_goals simp [h, only_rv64]

theorem acc_A (w : BitVec 32) (isa : Isa) (o : AOpcode)
    (h : accepts32 isa w.toNat (.A o)) : U32.parse_opcode w isa = .ok (.A o) := by
  unfold U32.parse_opcode U32.parse_extension A.parse_opcode
  fields32
  cases isa <;> cases o
  all_goals simp [accepts32, row32, gated64, fixed32] at h
  all_goals simp [h, only_rv64]

theorem acc_Zifencei (w : BitVec 32) (isa : Isa) (o : ZifenceiOpcode)
    (h : accepts32 isa w.toNat (.Zifencei o)) : U32.parse_opcode w isa = .ok (.Zifencei o) := by
  unfold U32.parse_opcode U32.parse_extension Zifencei.parse_opcode
  fields32
  cases o
  all_goals simp [accepts32, row32, gated64, fixed32] at h
  all_goals simp [h, only_rv64]

theorem acc_Zicboz (w : BitVec 32) (isa : Isa) (o : ZicbozOpcode)
    (h : accepts32 isa w.toNat (.Zicboz o)) : U32.parse_opcode w isa = .ok (.Zicboz o) := by
  unfold U32.parse_opcode U32.parse_extension Zicboz.parse_opcode
  fields32
  cases o
  all_goals simp [accepts32, row32, gated64, fixed32] at h
  all_goals simp [h, only_rv64]

theorem acc_Zicsr (w : BitVec 32) (isa : Isa) (o : ZicsrOpcode)
    (h : accepts32 isa w.toNat (.Zicsr o)) : U32.parse_opcode w isa = .ok (.Zicsr o) := by
  unfold U32.parse_opcode U32.parse_extension Zicsr.parse_opcode
  fields32
  cases o
  all_goals simp [accepts32, row32, gated64, fixed32, counterCsr] at h
  case CSRRS =>
    have : ¬ ((3072 ≤ fld w.toNat 31 20 ∧ fld w.toNat 31 20 ≤ 3074) ∨
        (3200 ≤ fld w.toNat 31 20 ∧ fld w.toNat 31 20 ≤ 3202)) := by omega
    rw [if_neg this]
    simp [h]
  all_goals simp [h, only_rv64]

theorem acc_Zicfiss (w : BitVec 32) (isa : Isa) (o : ZicfissOpcode)
    (h : accepts32 isa w.toNat (.Zicfiss o)) : U32.parse_opcode w isa = .ok (.Zicfiss o) := by
  unfold U32.parse_opcode U32.parse_extension Zicfiss.parse_opcode
  fields32
  cases o
  all_goals simp [accepts32, row32, gated64, fixed32] at h
  all_goals first
    | (simp [h]; done)
    | (rcases h with ⟨ha, hb, hc | hc⟩ <;> simp [ha, hb, hc])

theorem acc_Zicntr (w : BitVec 32) (isa : Isa) (o : ZicntrOpcode)
    (h : accepts32 isa w.toNat (.Zicntr o)) : U32.parse_opcode w isa = .ok (.Zicntr o) := by
  unfold U32.parse_opcode U32.parse_extension Zicntr.parse_opcode
  fields32
  cases o
  all_goals simp [accepts32, row32, gated64, fixed32] at h
  all_goals simp [h]

theorem acc_Priv (w : BitVec 32) (isa : Isa) (o : PrivOpcode)
    (h : accepts32 isa w.toNat (.Priv o)) : U32.parse_opcode w isa = .ok (.Priv o) := by
  have hall := fld_all w
  have h7 := fld_31_25 w
  have h2 := fld_24_20 w
  unfold U32.parse_opcode U32.parse_extension Priv.parse_opcode
  fields32
  cases o
  all_goals simp [accepts32, row32, gated64, fixed32] at h
  · obtain ⟨ha, hb, hc, hd, he⟩ := h
    rw [hc] at h7 h2
    rw [ha, hb, hd, he, h7, h2] at hall
    simp [hall, fld]
  · obtain ⟨ha, hb, hc, hd, he⟩ := h
    rw [hc] at h7 h2
    rw [ha, hb, hd, he, h7, h2] at hall
    simp [hall, fld]
  · obtain ⟨ha, hb, hc, hd, he⟩ := h
    rw [hc] at h7 h2
    rw [ha, hb, hd, he, h7, h2] at hall
    simp [hall, fld]
  · simp [h]
    split
    · rename_i heq; rw [heq] at h; simp [fld] at h
    · rename_i heq; rw [heq] at h; simp [fld] at h
    · rename_i heq; rw [heq] at h; simp [fld] at h
    · simp

/-- The opcode reported for a `u32` is `op` exactly on the acceptance set of `op`. -/
theorem parse_opcode32_ok (w : BitVec 32) (isa : Isa) (op : OpcodeKind) :
    U32.parse_opcode w isa = .ok op ↔ accepts32 isa w.toNat op := by
  constructor
  · intro h
    have := out32 w isa
    rw [h] at this
    exact this
  · intro h
    cases op with
    | BaseI o => exact acc_BaseI w isa o h
    | M o => exact acc_M w isa o h
    | A o => exact acc_A w isa o h
    | C o => exact absurd h.2 (by simp [row32])
    | Zifencei o => exact acc_Zifencei w isa o h
    | Zicboz o => exact acc_Zicboz w isa o h
    | Zicsr o => exact acc_Zicsr w isa o h
    | Zicfiss o => exact acc_Zicfiss w isa o h
    | Zicntr o => exact acc_Zicntr w isa o h
    | Priv o => exact acc_Priv w isa o h

end Raki
