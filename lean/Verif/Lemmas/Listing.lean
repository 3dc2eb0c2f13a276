import Verif.Spec.Listing
import Verif.Lemmas.Official
import Verif.Lemmas.Fld
/-!
# The listings and the tables

The rows of the listings describe the same words and operands as `official32`, `official16` and the operand
functions.
-/

namespace Raki

open Spec

set_option linter.unusedSimpArgs false

/-- A word covered by a row of the listings is an official encoding, and conversely. -/
theorem covers_iff_official32 (isa : Isa) (op : OpcodeKind) (w : Nat) :
    (∃ l, listing32 isa op = some l ∧ l.covers 32 w) ↔ official32 isa w op := by
  rcases op with o | o | o | o | o | o | o | o | o | o
  all_goals cases o
  all_goals cases isa
  all_goals simp [listing32, on, Listed.covers, Listed.operands, cut, allFixed, pick, gather, Piece.width,
    Piece.fixed, Piece.asRd, Piece.asRs1, Piece.asRs2, Piece.asImm, noSide, official32, existsIn, gated64,
    row32, fixed32]
  all_goals first
    | omega
    | (simp only [counterCsr]; omega)

/-- The operands of a covered word. -/
theorem listed_operands32 (isa : Isa) (op : OpcodeKind) (w : Nat) (l : Listed) (r : Row)
    (hl : listing32 isa op = some l) (hr : row32 op = some r) (hc : l.covers 32 w) :
    l.operands 32 w = ⟨rd32 w r.fmt, rs132 w r.fmt, rs232 w r.fmt, imm32 isa w r.fmt⟩ := by
  rcases op with o | o | o | o | o | o | o | o | o | o
  all_goals cases o
  all_goals cases isa
  all_goals simp only [listing32, on, row32, Option.some.injEq, reduceCtorEq] at hl hr
  all_goals subst hl hr
  all_goals simp [Listed.covers, Listed.operands, cut, allFixed, pick, gather, Piece.width,
    Piece.fixed, Piece.asRd, Piece.asRs1, Piece.asRs2, Piece.asImm, noSide, rd32, rs132, rs232, imm32,
    immI, immS, immB, immU, immJ] at hc ⊢
  all_goals first
    | (simp [hc]; done)
    | (simp [Nat.add_comm, Nat.add_left_comm, Nat.add_assoc]; done)
    | omega

/-- Sign extension keeps zero and non-zero apart. -/
theorem sext_zero (n u : Nat) (hu : u < 2 ^ n) : sext n u = 0 ↔ u = 0 := by
  have : (u : Int) < 2 ^ n := by exact_mod_cast hu
  have h2 : 0 < 2 ^ (n - 1) := Nat.two_pow_pos _
  unfold sext
  split <;> omega

set_option maxHeartbeats 1000000 in
/-- The same for compressed instructions. -/
theorem covers_iff_official16 (isa : Isa) (op : OpcodeKind) (w : Nat) (hw : w < 2 ^ 16) :
    (∃ l, listing16 isa op = some l ∧ l.covers 16 w) ↔ official16 isa w op := by
  rcases op with o | o | o | o | o | o | o | o | o | o
  all_goals cases o
  all_goals cases isa
  all_goals simp [listing16, on, Listed.covers, Listed.operands, cut, allFixed, pick, gather, Piece.width,
    Piece.fixed, Piece.asRd, Piece.asRs1, Piece.asRs2, Piece.asImm, noSide, official16, quad]
  all_goals first
    | omega
    | (rw [sext_zero _ _ (by simp only [fld]; omega)]; simp only [fld]; omega)
    | (simp only [fld]; omega)

theorem listed_operands16 (isa : Isa) (op : OpcodeKind) (w : Nat) (l : Listed)
    (hl : listing16 isa op = some l) (hc : l.covers 16 w) :
    l.operands 16 w = ⟨rd16 w op, rs116 w op, rs216 w op, imm16 w op⟩ := by
  rcases op with o | o | o | o | o | o | o | o | o | o
  all_goals cases o
  all_goals cases isa
  all_goals simp only [listing16, on, Option.some.injEq, reduceCtorEq] at hl
  all_goals subst hl
  all_goals simp [Listed.covers, Listed.operands, cut, allFixed, pick, gather, Piece.width, regC,
    Piece.fixed, Piece.asRd, Piece.asRs1, Piece.asRs2, Piece.asImm, noSide, rd16, rs116, rs216, imm16,
    uimmCI, uimmCIW, uimmW, uimmD, immCJ, immCB, imm16sp, immCLui, uimmLwsp, uimmLdsp, uimmSwsp,
    uimmSdsp] at hc ⊢
  all_goals first
    | (simp [hc]; done)
    | (simp [Nat.add_comm, Nat.add_left_comm, Nat.add_assoc]; done)
    | omega

end Raki
