import Verif.Lemmas.Scatter
import Verif.Model.Inst32
import Verif.Spec.Isa32
/-!
# Which opcode (or error) the 32-bit decoder reports, in terms of bit fields
-/

namespace Raki

open Spec

set_option linter.unusedSimpArgs false

/-- Replace every `slice` and checked conversion by the field it computes. -/
macro "fields32" : tactic =>
  `(tactic| simp only [U32.slice_eq, Nat.reduceLeDiff, Nat.reduceSub, Nat.reduceAdd, Nat.reduceLT,
      toNat_ofNat_fld32, tryU8_fld, tryU16_fld, RustM.bind_ok])

/-- What each result of `parse_extension` says about the word. -/
def Ext32 (w : Nat) : RustM Extensions → Prop
  | .ok .Zifencei => fld w 6 0 = 0x0f ∧ fld w 14 12 = 0
  | .ok .Zicboz => fld w 6 0 = 0x0f ∧ fld w 14 12 = 2
  | .ok .A => fld w 6 0 = 0x2f ∧ fld w 31 27 ∈ [0, 1, 2, 3, 4, 8, 0xc, 0x10, 0x14, 0x18, 0x1c]
  | .ok .Zicfiss => (fld w 6 0 = 0x2f ∧ fld w 31 27 = 9) ∨ (fld w 6 0 = 0x73 ∧ fld w 14 12 = 4)
  | .ok .M => (fld w 6 0 = 0x33 ∨ fld w 6 0 = 0x3b) ∧ fld w 31 25 = 1
  | .ok .Priv => fld w 6 0 = 0x73 ∧ fld w 14 12 = 0 ∧ fld w 31 25 ≠ 0
  | .ok .Zicntr => fld w 6 0 = 0x73 ∧ fld w 14 12 = 2 ∧ counterCsr (fld w 31 20)
  | .ok .Zicsr => fld w 6 0 = 0x73 ∧
      (fld w 14 12 = 1 ∨ (fld w 14 12 = 2 ∧ ¬ counterCsr (fld w 31 20)) ∨ fld w 14 12 = 3
      ∨ fld w 14 12 = 5 ∨ fld w 14 12 = 6 ∨ fld w 14 12 = 7)
  | .ok .BaseI =>
      (fld w 6 0 ≠ 0x0f ∧ fld w 6 0 ≠ 0x2f ∧ fld w 6 0 ≠ 0x33 ∧ fld w 6 0 ≠ 0x3b ∧ fld w 6 0 ≠ 0x73)
      ∨ (fld w 6 0 = 0x33 ∧ fld w 31 25 ≠ 1)
      ∨ (fld w 6 0 = 0x3b ∧ (fld w 31 25 = 0 ∨ fld w 31 25 = 0x20))
      ∨ (fld w 6 0 = 0x73 ∧ fld w 14 12 = 0 ∧ fld w 31 25 = 0)
  | .ok .C => False
  | .err e => e = .UnknownExtension ∧ rejects32 .Rv64 w .UnknownExtension
  | .panic => False

theorem ext32 (w : BitVec 32) : Ext32 w.toNat (U32.parse_extension w) := by
  unfold U32.parse_extension
  fields32
  have h3 := fld_lt w.toNat 14 12
  repeat' split
  all_goals simp only [Ext32, rejects32, counterCsr, List.mem_cons, List.not_mem_nil, or_false,
    true_and, imp_false] at *
  all_goals omega

/-- What an outcome of opcode parsing must satisfy. -/
def Out32 (isa : Isa) (w : Nat) : RustM OpcodeKind → Prop
  | .ok op => accepts32 isa w op
  | .err e => rejects32 isa w e
  | .panic => False

theorem out_only {α : Type} (isa : Isa) (w : Nat) (o : α) (K : α → OpcodeKind)
    (hg : gated64 (K o) = true) (ha : accepts32 .Rv64 w (K o)) :
    Out32 isa w (only_rv64 o isa >>= fun a => RustM.ok (K a)) := by
  cases isa
  · exact ⟨rfl, K o, hg, ha⟩
  · exact ha

theorem fld_31_20 (w : BitVec 32) :
    fld w.toNat 31 20 = fld w.toNat 31 25 * 32 + fld w.toNat 24 20 := by
  have := w.isLt
  simp only [fld]; omega

theorem fld_all (w : BitVec 32) : w.toNat = fld w.toNat 6 0 + fld w.toNat 11 7 * 2 ^ 7
    + fld w.toNat 14 12 * 2 ^ 12 + fld w.toNat 19 15 * 2 ^ 15 + fld w.toNat 24 20 * 2 ^ 20
    + fld w.toNat 31 25 * 2 ^ 25 := by
  have := w.isLt
  simp only [fld]; omega

theorem out_BaseI (w : BitVec 32) (isa : Isa) (h : Ext32 w.toNat (.ok .BaseI)) :
    Out32 isa w.toNat (BaseI.parse_opcode w isa >>= fun o => RustM.ok (.BaseI o)) := by
  simp only [Ext32] at h
  unfold BaseI.parse_opcode
  fields32
  have h3 := fld_lt w.toNat 14 12
  have hc := fld_31_20 w
  repeat' split
  all_goals try simp only [RustM.bind_ok, RustM.bind_err]
  all_goals try apply out_only _ _ _ OpcodeKind.BaseI rfl
  all_goals simp_all [Out32, accepts32, rejects32, row32, gated64, fixed32]
  all_goals omega

theorem out_M (w : BitVec 32) (isa : Isa) (h : Ext32 w.toNat (.ok .M)) :
    Out32 isa w.toNat (M.parse_opcode w isa >>= fun o => RustM.ok (.M o)) := by
  simp only [Ext32] at h
  unfold M.parse_opcode
  fields32
  have h3 := fld_lt w.toNat 14 12
  repeat' split
  all_goals try simp only [RustM.bind_ok, RustM.bind_err]
  all_goals try apply out_only _ _ _ OpcodeKind.M rfl
  all_goals simp_all [Out32, accepts32, rejects32, row32, gated64, fixed32]
  all_goals omega

theorem out_A (w : BitVec 32) (isa : Isa) (h : Ext32 w.toNat (.ok .A)) :
    Out32 isa w.toNat (A.parse_opcode w isa >>= fun o => RustM.ok (.A o)) := by
  simp only [Ext32] at h
  unfold A.parse_opcode
  fields32
  repeat' split
  all_goals try simp only [RustM.bind_ok, RustM.bind_err]
  all_goals try apply out_only _ _ _ OpcodeKind.A rfl
  all_goals simp_all [Out32, accepts32, rejects32, row32, gated64, fixed32]
  all_goals omega

theorem out_Zifencei (w : BitVec 32) (isa : Isa) (h : Ext32 w.toNat (.ok .Zifencei)) :
    Out32 isa w.toNat (Zifencei.parse_opcode w >>= fun o => RustM.ok (.Zifencei o)) := by
  simp only [Ext32] at h
  unfold Zifencei.parse_opcode
  fields32
  simp [h, Out32, accepts32, row32, gated64, fixed32]

theorem out_Zicboz (w : BitVec 32) (isa : Isa) (h : Ext32 w.toNat (.ok .Zicboz)) :
    Out32 isa w.toNat (Zicboz.parse_opcode w >>= fun o => RustM.ok (.Zicboz o)) := by
  simp only [Ext32] at h
  unfold Zicboz.parse_opcode
  fields32
  repeat' split
  all_goals simp_all [Out32, accepts32, rejects32, row32, gated64, fixed32]

theorem out_Zicsr (w : BitVec 32) (isa : Isa) (h : Ext32 w.toNat (.ok .Zicsr)) :
    Out32 isa w.toNat (Zicsr.parse_opcode w >>= fun o => RustM.ok (.Zicsr o)) := by
  simp only [Ext32] at h
  unfold Zicsr.parse_opcode
  fields32
  repeat' split
  all_goals simp_all [Out32, accepts32, rejects32, row32, gated64, fixed32]

theorem out_Zicfiss (w : BitVec 32) (isa : Isa) (h : Ext32 w.toNat (.ok .Zicfiss)) :
    Out32 isa w.toNat (Zicfiss.parse_opcode w >>= fun o => RustM.ok (.Zicfiss o)) := by
  simp only [Ext32] at h
  unfold Zicfiss.parse_opcode
  fields32
  repeat' split
  all_goals simp_all [Out32, accepts32, rejects32, row32, gated64, fixed32]

theorem out_Zicntr (w : BitVec 32) (isa : Isa) (h : Ext32 w.toNat (.ok .Zicntr)) :
    Out32 isa w.toNat (Zicntr.parse_opcode w >>= fun o => RustM.ok (.Zicntr o)) := by
  simp only [Ext32] at h
  unfold Zicntr.parse_opcode
  fields32
  repeat' split
  all_goals simp_all [Out32, accepts32, rejects32, row32, gated64, fixed32, counterCsr]

theorem out_Priv (w : BitVec 32) (isa : Isa) (h : Ext32 w.toNat (.ok .Priv)) :
    Out32 isa w.toNat (Priv.parse_opcode w >>= fun o => RustM.ok (.Priv o)) := by
  simp only [Ext32] at h
  unfold Priv.parse_opcode
  fields32
  split
  · rename_i heq; simp [heq, Out32, accepts32, row32, gated64, fixed32, fld]
  · rename_i heq; simp [heq, Out32, accepts32, row32, gated64, fixed32, fld]
  · rename_i heq; simp [heq, Out32, accepts32, row32, gated64, fixed32, fld]
  · split
    · simp_all [Out32, accepts32, gated64]
    · simp_all [Out32, rejects32]

/-- Every outcome of `parse_opcode` on a `u32` is as specified. -/
theorem out32 (w : BitVec 32) (isa : Isa) : Out32 isa w.toNat (U32.parse_opcode w isa) := by
  have h := ext32 w
  unfold U32.parse_opcode
  cases he : U32.parse_extension w with
  | panic => rw [he] at h; exact h.elim
  | err e =>
    rw [he] at h
    obtain ⟨rfl, h⟩ := h
    exact h
  | ok x =>
    rw [he] at h
    cases x
    · exact out_BaseI w isa h
    · exact out_M w isa h
    · exact out_A w isa h
    · exact h.elim
    · exact out_Zifencei w isa h
    · exact out_Zicboz w isa h
    · exact out_Zicsr w isa h
    · exact out_Zicfiss w isa h
    · exact out_Zicntr w isa h
    · exact out_Priv w isa h

end Raki
