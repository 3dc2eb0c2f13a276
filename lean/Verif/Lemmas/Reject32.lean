import Verif.Lemmas.Accept32
/-!
# Evaluation of the 32-bit decoder on words it rejects
-/

namespace Raki

open Spec

set_option linter.unusedSimpArgs false

/-- Unfold every opcode parser of the 32-bit decoder to field matches. -/
macro "unfold32" : tactic =>
  `(tactic| (unfold U32.parse_opcode U32.parse_extension
             simp only [BaseI.parse_opcode, M.parse_opcode, A.parse_opcode, Zifencei.parse_opcode,
               Zicboz.parse_opcode, Zicsr.parse_opcode, Zicfiss.parse_opcode, Zicntr.parse_opcode,
               Priv.parse_opcode]
             fields32))

theorem rej_InvalidOpcode (w : BitVec 32) (isa : Isa) (h : rejects32 isa w.toNat .InvalidOpcode) :
    U32.parse_opcode w isa = .err .InvalidOpcode := by
  unfold32
  simp only [rejects32, List.mem_cons, List.not_mem_nil, or_false, not_or] at h
  rcases h with h | ⟨ha, hb, hc | hc⟩ | ⟨ha, hb, hc⟩
  · simp [h]
  · simp [ha, hb, hc]
  · simp only [ha, hb]
    repeat' split
    all_goals simp_all
  · simp [ha, hb, hc]

theorem rej_InvalidFunct3 (w : BitVec 32) (isa : Isa) (h : rejects32 isa w.toNat .InvalidFunct3) :
    U32.parse_opcode w isa = .err .InvalidFunct3 := by
  unfold32
  simp only [rejects32, List.mem_cons, List.not_mem_nil, or_false, not_or] at h
  rcases h with ⟨ha, hb | hb⟩ | ⟨ha, hb⟩ | ⟨ha, hb⟩ | ⟨ha, hb⟩ | ⟨ha, hb | hb, hc⟩
    | ⟨ha, hb, hc | hc | hc⟩ | ⟨ha, hb, hc⟩
  · simp [ha, hb]
  · simp [ha, hb]
  · simp [ha, hb]
  · have h0 : fld w.toNat 14 12 ≠ 0 ∧ fld w.toNat 14 12 ≠ 1 ∧ fld w.toNat 14 12 ≠ 2 ∧
      fld w.toNat 14 12 ≠ 3 := by omega
    simp [ha, h0]
  · simp [ha, hb]
  · simp [ha, hb, hc]
  · simp [ha, hb, hc]
  · simp [ha, hb, hc]
  · simp [ha, hb, hc]
  · simp [ha, hb, hc]
  · rcases hc with hc | hc | hc | hc | hc | hc | hc | hc | hc | hc | hc | hc <;> simp [ha, hb, hc]

theorem rej_InvalidFunct5 (w : BitVec 32) (isa : Isa) (h : rejects32 isa w.toNat .InvalidFunct5) :
    U32.parse_opcode w isa = .err .InvalidFunct5 := by
  unfold32
  simp only [rejects32] at h
  obtain ⟨ha, hb, hc, hd⟩ := h
  have h0 : fld w.toNat 24 20 ≠ 0 ∧ fld w.toNat 24 20 ≠ 1 := by omega
  simp [ha, hb, hc, h0]

theorem rej_InvalidFunct6 (w : BitVec 32) (isa : Isa) (h : rejects32 isa w.toNat .InvalidFunct6) :
    U32.parse_opcode w isa = .err .InvalidFunct6 := by
  unfold32
  simp only [rejects32, List.mem_cons, List.not_mem_nil, or_false, not_or] at h
  obtain ⟨rfl, ha, ⟨hb, hc⟩ | ⟨hb, hc⟩⟩ := h
  · simp [ha, hb, hc]
  · simp [ha, hb, hc]

theorem rej_InvalidFunct7 (w : BitVec 32) (isa : Isa) (h : rejects32 isa w.toNat .InvalidFunct7) :
    U32.parse_opcode w isa = .err .InvalidFunct7 := by
  unfold32
  simp only [rejects32, List.mem_cons, List.not_mem_nil, or_false, not_or] at h
  rcases h with ⟨rfl, ha, ⟨hb, hc⟩ | ⟨hb, hc⟩⟩ | ⟨ha, hb | hb, hc⟩ | ⟨ha, hb, hc⟩ | ⟨ha, hb, hc, hd⟩
  · simp [ha, hb, hc]
  · simp [ha, hb, hc]
  · simp [ha, hb, hc]
  · simp [ha, hb, hc]
  · simp [ha, hb, hc]
  · simp [ha, hb, hc, hd]

theorem rej_UnknownExtension (w : BitVec 32) (isa : Isa)
    (h : rejects32 isa w.toNat .UnknownExtension) :
    U32.parse_opcode w isa = .err .UnknownExtension := by
  unfold32
  simp only [rejects32, List.mem_cons, List.not_mem_nil, or_false, not_or] at h
  rcases h with ⟨ha, hb⟩ | ⟨ha, hb⟩ | ⟨ha, hb⟩ <;> simp [ha, hb]

theorem rej_OnlyRv64Inst (w : BitVec 32) (isa : Isa) (h : rejects32 isa w.toNat .OnlyRv64Inst) :
    U32.parse_opcode w isa = .err .OnlyRv64Inst := by
  obtain ⟨rfl, op, hg, ha⟩ := h
  unfold32
  simp only [accepts32, forall_const, true_and] at ha
  cases op with
  | BaseI o =>
    cases o <;> simp [gated64] at hg <;> simp [row32, fixed32] at ha
    all_goals first
      | (simp [ha, only_rv64]; done)
      | (rcases ha with ⟨ha, hb, hc | hc⟩ <;> simp [ha, hb, hc, only_rv64])
  | M o => cases o <;> simp [gated64] at hg <;> simp [row32, fixed32] at ha <;> simp [ha, only_rv64]
  | A o => cases o <;> simp [gated64] at hg <;> simp [row32, fixed32] at ha <;> simp [ha, only_rv64]
  | C o => simp [gated64] at hg
  | Zifencei o => simp [gated64] at hg
  | Zicboz o => simp [gated64] at hg
  | Zicsr o => simp [gated64] at hg
  | Zicfiss o => simp [gated64] at hg
  | Zicntr o => simp [gated64] at hg
  | Priv o => simp [gated64] at hg

/-- The error reported for a `u32` is `e` exactly on the rejection set of `e`. -/
theorem parse_opcode32_err (w : BitVec 32) (isa : Isa) (e : DecodingError) :
    U32.parse_opcode w isa = .err e ↔ rejects32 isa w.toNat e := by
  constructor
  · intro h
    have := out32 w isa
    rw [h] at this
    exact this
  · intro h
    cases e with
    | InvalidOpcode => exact rej_InvalidOpcode w isa h
    | InvalidFunct3 => exact rej_InvalidFunct3 w isa h
    | InvalidFunct5 => exact rej_InvalidFunct5 w isa h
    | InvalidFunct6 => exact rej_InvalidFunct6 w isa h
    | InvalidFunct7 => exact rej_InvalidFunct7 w isa h
    | UnknownExtension => exact rej_UnknownExtension w isa h
    | OnlyRv64Inst => exact rej_OnlyRv64Inst w isa h
    | IllegalInstruction => exact h.elim
    | Not16BitInst => exact h.elim
    | Not32BitInst => exact h.elim

theorem parse_opcode32_no_panic (w : BitVec 32) (isa : Isa) : U32.parse_opcode w isa ≠ .panic := by
  intro h
  have := out32 w isa
  rw [h] at this
  exact this

end Raki
