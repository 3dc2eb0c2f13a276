import Verif.Source.Dead
import Verif.Source.Reach1
import Verif.Source.Reach2
import Verif.Source.Reach3
/-!
# C78: dead code

Of the 705 branches of the functions of the crate, 29 can be replaced by any code whatever without any effect on what
users of the crate can observe; each of the others is reached by some public call.
-/

namespace Raki

open Source

set_option linter.constructorNameAsVariable false

/-- Other code in dead branches, in any number of them at once, changes no public call. -/
theorem C78_dead (g : Branch → Option Expr) (hg : ∀ b, b ∉ dead → g b = none) (md : Build) (d : Nat) (hd : 6 ≤ d)
    (pc : PublicCall) : pc.run (fill g crate) md d = pc.run crate md d := by
  have : inDead g = g := by
    funext b
    rw [inDead]
    split
    · rfl
    · rename_i h; exact (hg b h).symm
  have h := run_with g md (d - 6) pc
  rw [crateWith, this, show d - 6 + 6 = d by omega] at h
  exact h

/-- The branches in the list are branches of the program, and each is there once. -/
theorem C78_dead_branches : (dead.all fun b => (branches crate).contains b) = true ∧ dead.Nodup ∧
    dead.length = 29 ∧ (branches crate).length = 705 :=
  ⟨by kernel_rfl, by decide, rfl, by kernel_rfl⟩

/-- The branches not in the list, with the calls that reach them. -/
theorem live_branches : (branches crate).filter (fun b => !dead.contains b) =
    (reaching1 ++ reaching2 ++ reaching3).map (·.1) := by kernel_rfl

/-- Every branch not in the list is reached by a public call: some other code in its place changes how the call
ends. -/
theorem C78_live (b : Branch) (hb : b ∈ branches crate) (hl : b ∉ dead) :
    ∃ (pc : PublicCall) (e : Expr), ∀ d, 6 ≤ d →
      pc.run (fill (only b e) crate) debug d ≠ pc.run crate debug d := by
  have hm : b ∈ (branches crate).filter fun b => !dead.contains b := by
    rw [List.mem_filter]
    exact ⟨hb, by simp [hl]⟩
  rw [live_branches, List.mem_map] at hm
  obtain ⟨x, hx, rfl⟩ := hm
  have hd : differs x = true := by
    rw [List.mem_append, List.mem_append] at hx
    rcases hx with (hx | hx) | hx
    · exact List.all_eq_true.mp reaching1_differs x hx
    · exact List.all_eq_true.mp reaching2_differs x hx
    · exact List.all_eq_true.mp reaching3_differs x hx
  exact ⟨x.2, reached hd⟩

/-- So a branch can be replaced by anything without effect exactly if it is in the list. -/
theorem C78_dead_iff (b : Branch) (hb : b ∈ branches crate) :
    b ∈ dead ↔ ∀ e md d, 6 ≤ d → ∀ pc : PublicCall, pc.run (fill (only b e) crate) md d = pc.run crate md d := by
  constructor
  · intro h e md d hd pc
    apply C78_dead _ _ md d hd
    intro c hc
    rw [only, if_neg]
    rintro rfl
    exact hc h
  · intro h
    by_cases hl : b ∈ dead
    · exact hl
    · obtain ⟨pc, e, hne⟩ := C78_live b hb hl
      exact (hne 6 (Nat.le_refl 6) (h e debug 6 (Nat.le_refl 6) pc)).elim

/-! The `unreachable!()` of `quadrant1` (c_extension.rs:54) is dead: decoding is the same with any other code there,
even where the arm next to it is taken.  The `panic!` of `reg2str` (instruction.rs:262) is not dead. -/

example (e : Expr) (md : Build) (isa : Isa) :
    PublicCall.run (fill (only ⟨.c_extension_bit_16, .quadrant1, 25⟩ e) crate) md 6 (.decode16 0x9c01 isa) =
      PublicCall.run crate md 6 (.decode16 0x9c01 isa) := by
  apply C78_dead _ _ _ _ (Nat.le_refl 6)
  intro c hc
  rw [only, if_neg]
  rintro rfl
  exact hc (by decide)

example : ∃ (pc : PublicCall) (e : Expr), ∀ d, 6 ≤ d →
    pc.run (fill (only ⟨.instruction, .reg2str, 32⟩ e) crate) debug d ≠ pc.run crate debug d :=
  C78_live ⟨.instruction, .reg2str, 32⟩
    (by have h : (branches crate).contains ⟨.instruction, .reg2str, 32⟩ = true := by kernel_rfl
        simpa using h) (by decide)

end Raki
