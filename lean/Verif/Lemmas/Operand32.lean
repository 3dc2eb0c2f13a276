import Verif.Lemmas.Scatter
import Verif.Model.Inst32
import Verif.Spec.Isa32
/-!
# Operands of the 32-bit decoder as field formulas
-/

namespace Raki

open Spec

set_option linter.unusedSimpArgs false

theorem bit_eq (w k : Nat) : bit w k = (w.testBit k).toNat := by
  rw [bit, Nat.testBit_eq_decide_div_mod_eq]
  have : w / 2^k % 2 = 0 ∨ w / 2^k % 2 = 1 := by omega
  rcases this with h | h <;> simp [h]

theorem bit_fld (w hi lo k : Nat) (h : k < hi + 1 - lo) : bit (fld w hi lo) k = bit w (lo + k) := by
  rw [bit_eq, bit_eq, fld, Nat.testBit_mod_two_pow, Nat.testBit_div_two_pow]
  simp [h, Nat.add_comm]

theorem fld_self (w k : Nat) : fld w k k = bit w k := by
  unfold fld bit
  have : k + 1 - k = 1 := by omega
  rw [this]

theorem fld_step (w hi lo : Nat) (h : lo < hi) : fld w hi lo = bit w lo + 2 * fld w hi (lo + 1) := by
  unfold fld bit
  have h1 : hi + 1 - lo = (hi + 1 - (lo + 1)) + 1 := by omega
  rw [h1, Nat.pow_succ 2 lo, ← Nat.div_div_eq_div_mul, Nat.pow_succ, Nat.mul_comm _ 2, Nat.mod_mul]

theorem U32.set_fld (w : BitVec 32) (e s : Nat) (mask : List Nat) (hnd : mask.reverse.Nodup)
    (hms : ∀ m ∈ mask.reverse, m < 32) (hl : mask.reverse.length ≤ 32) :
    U32.set (BitVec.ofNat 32 (fld w.toNat e s)) mask
      = .ok (BitVec.ofNat 32 (scatter (fld w.toNat e s) mask.reverse 0)) := by
  rw [U32.set_eq _ _ hnd hms hl, toNat_ofNat_fld32]

/-- Expand scattered bits and fields into sums of single bits. -/
macro "bits" : tactic =>
  `(tactic| (simp only [List.reverse_cons, List.reverse_nil, List.nil_append, List.cons_append,
               scatter, bit_fld, Nat.reduceLT, Nat.reduceAdd, Nat.reduceSub]
             simp only [fld_step, fld_self, Nat.reduceLT, Nat.reduceAdd, Nat.reduceSub]))

theorem fld_lt32 (w : BitVec 32) (e s : Nat) : fld w.toNat e s < 2 ^ 32 :=
  Nat.lt_of_le_of_lt (fld_le _ _ _) w.isLt

theorem asI32_fld (w : BitVec 32) (e s : Nat) (h : e + 1 - s ≤ 31) :
    asI32 (BitVec.ofNat 32 (fld w.toNat e s)) = (fld w.toNat e s : Int) := by
  apply asI32_ofNat
  have := fld_lt w.toNat e s
  have : 2 ^ (e + 1 - s) ≤ 2 ^ 31 := Nat.pow_le_pow_right (by decide) h
  omega

theorem slice_asI32 (w : BitVec 32) (e s : Nat) (h1 : s ≤ e) (h2 : e - s + 1 < 32) (h3 : s < 32) :
    (do RustM.ok (asI32 (← U32.slice w e s))) = RustM.ok (fld w.toNat e s : Int) := by
  rw [U32.slice_eq w e s h1 h2 h3, RustM.bind_ok, asI32_fld _ _ _ (by omega)]

theorem immI_eq (w : BitVec 32) :
    (do let imm32 := asI32 (← U32.slice w 31 20)
        to_signed_nbit imm32 12) = .ok (immI w.toNat) := by
  rw [U32.slice_eq _ _ _ (by decide) (by decide) (by decide), RustM.bind_ok]
  have := fld_lt w.toNat 31 20
  rw [to_signed_nbit_small _ 12 (by decide) (by decide) (by simpa using this), immI]

theorem immS_eq (w : BitVec 32) :
    (do let imm32 := asI32 ((← U32.set (← U32.slice w 11 7) [4, 3, 2, 1, 0])
          ||| (← U32.set (← U32.slice w 31 25) [11, 10, 9, 8, 7, 6, 5]))
        to_signed_nbit imm32 12) = .ok (immS w.toNat) := by
  rw [U32.slice_eq _ _ _ (by decide) (by decide) (by decide), RustM.bind_ok,
    U32.set_fld _ _ _ _ (by decide) (by decide) (by decide), RustM.bind_ok,
    U32.slice_eq _ _ _ (by decide) (by decide) (by decide), RustM.bind_ok,
    U32.set_fld _ _ _ _ (by decide) (by decide) (by decide), RustM.bind_ok]
  simp only []
  rw [scatter_or _ _ _ _ (fld_lt32 _ _ _) (fld_lt32 _ _ _) (by decide) (by decide) (by decide)
    (by decide) (by decide) (by decide) (by decide)]
  have h1 := fld_lt w.toNat 31 25
  have h2 := fld_lt w.toNat 11 7
  have h : scatter (fld w.toNat 11 7) [4, 3, 2, 1, 0].reverse 0
      + scatter (fld w.toNat 31 25) [11, 10, 9, 8, 7, 6, 5].reverse 0
      = fld w.toNat 31 25 * 2 ^ 5 + fld w.toNat 11 7 := by
    bits; omega
  rw [h, to_signed_nbit_small _ 12 (by decide) (by decide) (by omega), immS]

theorem immB_eq (w : BitVec 32) :
    (do let imm32 := asI32 ((← U32.set (← U32.slice w 11 7) [4, 3, 2, 1, 11])
          ||| (← U32.set (← U32.slice w 31 25) [12, 10, 9, 8, 7, 6, 5]))
        to_signed_nbit imm32 13) = .ok (immB w.toNat) := by
  rw [U32.slice_eq _ _ _ (by decide) (by decide) (by decide), RustM.bind_ok,
    U32.set_fld _ _ _ _ (by decide) (by decide) (by decide), RustM.bind_ok,
    U32.slice_eq _ _ _ (by decide) (by decide) (by decide), RustM.bind_ok,
    U32.set_fld _ _ _ _ (by decide) (by decide) (by decide), RustM.bind_ok]
  simp only []
  rw [scatter_or _ _ _ _ (fld_lt32 _ _ _) (fld_lt32 _ _ _) (by decide) (by decide) (by decide)
    (by decide) (by decide) (by decide) (by decide)]
  have h1 := fld_lt w.toNat 31 31
  have h2 := fld_lt w.toNat 7 7
  have h3 := fld_lt w.toNat 30 25
  have h4 := fld_lt w.toNat 11 8
  have h : scatter (fld w.toNat 11 7) [4, 3, 2, 1, 11].reverse 0
      + scatter (fld w.toNat 31 25) [12, 10, 9, 8, 7, 6, 5].reverse 0
      = fld w.toNat 31 31 * 2 ^ 12 + fld w.toNat 7 7 * 2 ^ 11 + fld w.toNat 30 25 * 2 ^ 5
        + fld w.toNat 11 8 * 2 := by
    bits; omega
  rw [h, to_signed_nbit_small _ 13 (by decide) (by decide) (by omega), immB]

theorem immJ_eq (w : BitVec 32) :
    (do let imm32 := asI32 (← U32.set (← U32.slice w 31 12)
          [20, 10, 9, 8, 7, 6, 5, 4, 3, 2, 1, 11, 19, 18, 17, 16, 15, 14, 13, 12])
        to_signed_nbit imm32 21) = .ok (immJ w.toNat) := by
  rw [U32.slice_eq _ _ _ (by decide) (by decide) (by decide), RustM.bind_ok,
    U32.set_fld _ _ _ _ (by decide) (by decide) (by decide), RustM.bind_ok]
  simp only []
  have h1 := fld_lt w.toNat 31 31
  have h2 := fld_lt w.toNat 19 12
  have h3 := fld_lt w.toNat 20 20
  have h4 := fld_lt w.toNat 30 21
  have h : scatter (fld w.toNat 31 12)
      [20, 10, 9, 8, 7, 6, 5, 4, 3, 2, 1, 11, 19, 18, 17, 16, 15, 14, 13, 12].reverse 0
      = fld w.toNat 31 31 * 2 ^ 20 + fld w.toNat 19 12 * 2 ^ 12 + fld w.toNat 20 20 * 2 ^ 11
        + fld w.toNat 30 21 * 2 := by
    bits; omega
  rw [h, to_signed_nbit_small _ 21 (by decide) (by decide) (by omega), immJ]

theorem parse_rd32_eq (w : BitVec 32) (op : OpcodeKind) (r : Row) (h : row32 op = some r) :
    U32.parse_rd w op = .ok (rd32 w.toNat r.fmt) := by
  rcases op with o | o | o | o | o | o | o | o | o | o <;> cases o
  all_goals simp [row32] at h
  all_goals subst h
  all_goals simp only [U32.parse_rd, BaseI.parse_rd, M.parse_rd, A.parse_rd, Zifencei.parse_rd,
    Zicboz.parse_rd, Zicsr.parse_rd, Zicfiss.parse_rd, Zicntr.parse_rd, Priv.parse_rd, rd32,
    U32.slice_eq, toNat_ofNat_fld32,
    tryU8_fld, RustM.bind_ok, Nat.reduceLeDiff, Nat.reduceSub, Nat.reduceAdd, Nat.reduceLT]

theorem parse_rs132_eq (w : BitVec 32) (op : OpcodeKind) (r : Row) (h : row32 op = some r) :
    U32.parse_rs1 w op = .ok (rs132 w.toNat r.fmt) := by
  rcases op with o | o | o | o | o | o | o | o | o | o <;> cases o
  all_goals simp [row32] at h
  all_goals subst h
  all_goals simp only [U32.parse_rs1, BaseI.parse_rs1, M.parse_rs1, A.parse_rs1, Zifencei.parse_rs1,
    Zicboz.parse_rs1, Zicsr.parse_rs1, Zicfiss.parse_rs1, Zicntr.parse_rs1, Priv.parse_rs1, rs132,
    U32.slice_eq, toNat_ofNat_fld32,
    tryU8_fld, RustM.bind_ok, Nat.reduceLeDiff, Nat.reduceSub, Nat.reduceAdd, Nat.reduceLT]

theorem parse_rs232_eq (w : BitVec 32) (op : OpcodeKind) (r : Row) (h : row32 op = some r) :
    U32.parse_rs2 w op = .ok (rs232 w.toNat r.fmt) := by
  rcases op with o | o | o | o | o | o | o | o | o | o <;> cases o
  all_goals simp [row32] at h
  all_goals subst h
  all_goals simp only [U32.parse_rs2, BaseI.parse_rs2, M.parse_rs2, A.parse_rs2, Zifencei.parse_rs2,
    Zicboz.parse_rs2, Zicsr.parse_rs2, Zicfiss.parse_rs2, Zicntr.parse_rs2, Priv.parse_rs2, rs232,
    U32.slice_eq, toNat_ofNat_fld32,
    tryU8_fld, RustM.bind_ok, Nat.reduceLeDiff, Nat.reduceSub, Nat.reduceAdd, Nat.reduceLT]

theorem BaseI.parse_imm_eq (w : BitVec 32) (isa : Isa) (o : BaseIOpcode) (r : Row)
    (h : row32 (.BaseI o) = some r) :
    BaseI.parse_imm w o isa = .ok (imm32 isa w.toNat r.fmt) := by
  have hI := immI_eq w
  have hS := immS_eq w
  have hB := immB_eq w
  have hJ := immJ_eq w
  have hU := slice_asI32 w 31 12 (by decide) (by decide) (by decide)
  have h5 := slice_asI32 w 24 20 (by decide) (by decide) (by decide)
  have h6 := slice_asI32 w 25 20 (by decide) (by decide) (by decide)
  unfold BaseI.parse_imm
  cases o
  all_goals simp [row32] at h
  all_goals subst h
  all_goals simp only [imm32, hI, hS, hB, hJ, hU, RustM.bind_ok, immU]
  all_goals cases isa
  all_goals simp only [U32.slice_eq, asI32_fld, RustM.bind_ok, Nat.reduceLeDiff, Nat.reduceSub,
    Nat.reduceAdd, Nat.reduceLT]

theorem parse_imm32_eq (w : BitVec 32) (isa : Isa) (op : OpcodeKind) (r : Row)
    (h : row32 op = some r) : U32.parse_imm w op isa = .ok (imm32 isa w.toNat r.fmt) := by
  rcases op with o | o | o | o | o | o | o | o | o | o
  · exact BaseI.parse_imm_eq w isa o r h
  all_goals cases o
  all_goals simp [row32] at h
  all_goals subst h
  all_goals simp only [U32.parse_imm, M.parse_imm, A.parse_imm, Zifencei.parse_imm,
    Zicboz.parse_imm, Zicsr.parse_imm, Zicfiss.parse_imm, Zicntr.parse_imm, Priv.parse_imm, imm32,
    U32.slice_eq, RustM.bind_ok, Nat.reduceLeDiff,
    Nat.reduceSub, Nat.reduceAdd, Nat.reduceLT, asI32_fld]

theorem getFormat32_eq (op : OpcodeKind) (r : Row) (h : row32 op = some r) :
    op.getFormat = instFormat32 op r.fmt := by
  rcases op with o | o | o | o | o | o | o | o | o | o <;> cases o
  all_goals simp [row32] at h
  all_goals subst h
  all_goals rfl

theorem accepts32_row (isa : Isa) (w : Nat) (op : OpcodeKind) (h : accepts32 isa w op) :
    ∃ r, row32 op = some r := by
  rcases op with o | o | o | o | o | o | o | o | o | o <;> cases o
  all_goals first
    | exact ⟨_, rfl⟩
    | exact absurd h.2 (by simp [row32])

end Raki
