import Verif.Spec.Isa32
import Verif.Spec.Isa16
import Verif.Lemmas.Fld
/-!
# Official encodings and the acceptance sets
-/

namespace Raki

open Spec

set_option linter.unusedSimpArgs false

theorem existsIn_gated (isa : Isa) (op : OpcodeKind) (h : existsIn isa op) :
    gated64 op = true → isa = .Rv64 := by
  rcases op with o | o | o | o | o | o | o | o | o | o
  case Zicfiss => intro hg; simp [gated64] at hg
  case Zicntr => intro hg; simp [gated64] at hg
  all_goals exact h

theorem fld_20_5 (w : Nat) : fld w 31 20 = fld w 31 25 * 32 + fld w 24 20 := by
  simp only [fld]; omega

theorem official_accepts32 (isa : Isa) (w : Nat) (op : OpcodeKind) (h : official32 isa w op) :
    accepts32 isa w op := by
  obtain ⟨he, hc, hf⟩ := h
  refine ⟨existsIn_gated _ _ he, ?_⟩
  have h20 := fld_20_5 w
  rcases op with o | o | o | o | o | o | o | o | o | o
  all_goals cases o
  all_goals first
    | exact hf
    | (simp [row32, fixed32] at hf ⊢; done)
    | (simp [row32, fixed32] at hf hc ⊢; simp [hf, hc]; done)
    | (simp [row32, fixed32] at hf hc ⊢; omega)

/-- The opcodes outside `strict32` are those for which the decoder differs from the manuals. -/
theorem strict_official32 (isa : Isa) (w : Nat) (op : OpcodeKind) (hs : strict32 op = true)
    (h : accepts32 isa w op) : official32 isa w op := by
  obtain ⟨hg, hf⟩ := h
  rcases op with o | o | o | o | o | o | o | o | o | o
  all_goals cases o
  all_goals first
    | (simp [strict32] at hs; done)
    | exact ⟨hg, by simp, hf⟩
    | exact ⟨by simp [existsIn], by simp, hf⟩
    | exact ⟨hg, fun _ => hf.2.2, hf.1, hf.2.1⟩
    | exact hf.elim

theorem official16_accepts16 (isa : Isa) (h : Nat) (op : OpcodeKind) (ho : official16 isa h op)
    (hne : ¬ (op = .C .ADD ∧ fld h 11 7 = 0)) : accepts16 isa h op := by
  rcases op with o | o | o | o | o | o | o | o | o | o
  case C =>
    cases o
    case ADDI4SPN =>
      refine ⟨ho.1, ?_⟩
      rintro rfl
      exact absurd ho (by simp [official16, fld])
    case LUI =>
      refine ⟨ho.1, ho.2.1, ?_, ?_⟩
      · rintro rfl
        exact absurd ho (by simp [official16, fld])
      · rintro rfl
        exact absurd ho (by simp [official16, fld])
    all_goals simp_all [official16, accepts16]
  all_goals exact ho

theorem strict_official16 (isa : Isa) (h : Nat) (op : OpcodeKind) (hs : strict16 op = true)
    (ha : accepts16 isa h op) : official16 isa h op := by
  rcases op with o | o | o | o | o | o | o | o | o | o
  case C => cases o <;> first | exact ha | simp [strict16] at hs
  all_goals exact ha

end Raki
