import Verif.Source.Coverage1
import Verif.Source.Coverage2
import Verif.Source.Coverage3
import Verif.Source.Coverage4
import Verif.Props.Dead
import Verif.Props.SourceTests
/-!
# C79: what the crate's own tests can see

Of the 705 branches of the functions of the crate, 471 can be replaced by any code whatever, all at once, and every
test of the crate still passes; each of the others makes some test fail if `unreachable!()` is put there.
-/

namespace Raki

open Source

set_option linter.constructorNameAsVariable false

theorem holed_all : ∀ md, holedRuns md = true
  | ⟨.checked, .w16⟩ => holed_checked_w16
  | ⟨.checked, .w32⟩ => holed_checked_w32
  | ⟨.checked, .w64⟩ => holed_checked_w64
  | ⟨.wrapping, .w16⟩ => holed_wrapping_w16
  | ⟨.wrapping, .w32⟩ => holed_wrapping_w32
  | ⟨.wrapping, .w64⟩ => holed_wrapping_w64

/-- A hole in every branch that no test reaches. -/
def inUnseen (b : Branch) : Option Expr := if b ∈ unseen then some blank else none

theorem unseenOf_nodup : (unseenOf.map fun x => (x.1, x.2.1)).Nodup := by decide

theorem mem_unseen (b : Branch) :
    b ∈ unseen ↔ ∃ x ∈ unseenOf, x.1 = b.owner ∧ x.2.1 = b.fn ∧ b.index ∈ x.2.2 := by
  simp only [unseen, List.mem_flatMap, List.mem_map]
  constructor
  · rintro ⟨x, hx, k, hk, rfl⟩
    exact ⟨x, hx, rfl, rfl, hk⟩
  · rintro ⟨x, hx, ho, hf, hk⟩
    refine ⟨x, hx, b.index, hk, ?_⟩
    rw [ho, hf]

/-- The same as a quicker test. -/
def isUnseen (b : Branch) : Bool :=
  unseenOf.any fun x => decide (x.1 = b.owner) && decide (x.2.1 = b.fn) && x.2.2.contains b.index

theorem isUnseen_iff (b : Branch) : isUnseen b = true ↔ b ∈ unseen := by
  simp only [mem_unseen, isUnseen, List.any_eq_true, Bool.and_eq_true, decide_eq_true_eq, and_assoc,
    List.contains_iff_mem]

theorem eq_of_nodup {α β : Type} (f : α → β) : ∀ {l : List α}, (l.map f).Nodup → ∀ {x y}, x ∈ l → y ∈ l → f x = f y →
    x = y
  | [], _, _, _, hx, _, _ => nomatch hx
  | a :: l, hn, x, y, hx, hy, h => by
    rw [List.map_cons, List.nodup_cons] at hn
    rcases List.mem_cons.mp hx with hx | hx <;> rcases List.mem_cons.mp hy with hy | hy
    · rw [hx, hy]
    · exact (hn.1 (hx ▸ h ▸ List.mem_map_of_mem hy)).elim
    · exact (hn.1 (hy ▸ h ▸ List.mem_map_of_mem hx)).elim
    · exact eq_of_nodup f hn.2 hx hy h

theorem holed_eq : holed = fill inUnseen testCrate := by
  apply List.map_congr_left
  intro fn _
  split
  · rename_i hx
    rw [Fn.fill_none]
    intro k
    rw [inUnseen, if_neg]
    rw [mem_unseen]
    rintro ⟨x, hm, ho, hf, _⟩
    have := List.find?_eq_none.mp hx x hm
    simp [ho, hf] at this
  · rename_i x hx
    have hm := List.mem_of_find?_eq_some hx
    have hp := List.find?_some hx
    simp only [decide_eq_true_eq] at hp
    rw [Fn.fill]
    congr 3
    funext k
    rw [inUnseen]
    congr 1
    rw [mem_unseen, eq_iff_iff, List.contains_iff_mem]
    constructor
    · intro hk
      exact ⟨x, hm, hp.1, hp.2, hk⟩
    · rintro ⟨y, hy, ho, hf, hk⟩
      have : x = y := eq_of_nodup _ unseenOf_nodup hm hy
        (Prod.ext (hp.1.trans ho.symm) (hp.2.trans hf.symm))
      rw [this]
      exact hk

/-- With any code in the branches of the list, in any number of them at once, every test of the crate passes, in every
build. -/
theorem C79_unseen (c : Crate) (hc : parse true files = some c) (g : Branch → Option Expr)
    (hg : ∀ b, b ∉ unseen → g b = none) (md : Build) (d : Nat) (hd : 7 ≤ d) (fn : Fn) (hf : fn ∈ c.fns)
    (hp : fn.params = []) : call (fill g c.fns) md d fn.owner fn.name [] = .val .unit := by
  rw [C76_parse] at hc
  cases hc
  have hb : Below inUnseen g := by
    intro b
    by_cases h : b ∈ unseen
    · exact .inr (if_pos h)
    · exact .inl ((if_neg h).trans (hg b h).symm)
  have hr := List.all_eq_true.mp (holed_all md) fn hf
  rw [hp, holed_eq] at hr
  have hl := call_fill hb testCrate md hd fn.owner fn.name []
  generalize call (fill inUnseen testCrate) md 7 fn.owner fn.name [] = x at hr hl
  generalize call (fill g testCrate) md d fn.owner fn.name [] = y at hl ⊢
  have hx : x = .val .unit := by
    simp only [List.isEmpty_nil, Bool.not_true, Bool.false_or] at hr
    split at hr
    · rfl
    · cases hr
  subst hx
  exact hl.eq nofun

/-- The branches in the list are branches of the program, and each is there once. -/
theorem C79_unseen_branches : (branches crate).filter (fun b => decide (b ∈ unseen)) = unseen ∧
    unseen.length = 471 ∧ (branches crate).length = 705 := by
  refine ⟨?_, by kernel_rfl, by kernel_rfl⟩
  have h : (branches crate).filter isUnseen = unseen := by kernel_rfl
  rw [← h]
  congr 1
  funext b
  rw [h, Bool.eq_iff_iff, decide_eq_true_eq, isUnseen_iff]

/-- The branches not in the list, with the tests that reach them. -/
theorem seen_branches : (branches crate).filter (fun b => !isUnseen b) = seenBy.map (·.1) := by kernel_rfl

/-- The tests of the list are tests of the crate. -/
theorem seenBy_tests : (seenBy.all fun x => testCrate.any fun fn =>
    decide (fn.owner = x.2.1) && decide (fn.name = x.2.2) && fn.params.isEmpty) = true := by kernel_rfl

/-- Every other branch is seen by a test: with `unreachable!()` in its place, the test panics. -/
theorem C79_seen (c : Crate) (hc : parse true files = some c) (b : Branch) (hb : b ∈ branches crate)
    (hu : b ∉ unseen) : ∃ fn ∈ c.fns, fn.params = [] ∧ ∀ d, 7 ≤ d →
      call (fill (only b .unreachable) c.fns) debug d fn.owner fn.name [] = .panic := by
  rw [C76_parse] at hc
  cases hc
  have hm : b ∈ (branches crate).filter fun b => !isUnseen b := by
    rw [List.mem_filter, Bool.not_eq_true']
    exact ⟨hb, Bool.eq_false_iff.mpr fun h => hu ((isUnseen_iff b).mp h)⟩
  rw [seen_branches, List.mem_map] at hm
  obtain ⟨x, hx, rfl⟩ := hm
  have hd := List.all_eq_true.mp (seen_panics seen_panics_120_end) x hx
  have ht := List.all_eq_true.mp seenBy_tests x hx
  rw [List.any_eq_true] at ht
  obtain ⟨fn, hf, ht⟩ := ht
  simp only [Bool.and_eq_true, decide_eq_true_eq, List.isEmpty_iff] at ht
  refine ⟨fn, hf, ht.2, fun d h7 => ?_⟩
  rw [ht.1.1, ht.1.2, ← swap_eq]
  rw [seenPanics] at hd
  have hp : call (swap x.1 .unreachable testCrate) debug 7 x.2.1 x.2.2 [] = .panic := by
    generalize call (swap x.1 .unreachable testCrate) debug 7 x.2.1 x.2.2 [] = y at hd
    cases y <;> first | rfl | cases hd
  rw [← hp]
  exact call_eq (Sub.refl _) debug h7 (by rw [hp]; nofun)

/-- So a branch can be replaced by anything without a test noticing exactly if it is in the list. -/
theorem C79_unseen_iff (c : Crate) (hc : parse true files = some c) (b : Branch) (hb : b ∈ branches crate) :
    b ∈ unseen ↔ ∀ e md d, 7 ≤ d → ∀ fn ∈ c.fns, fn.params = [] →
      call (fill (only b e) c.fns) md d fn.owner fn.name [] = .val .unit := by
  constructor
  · intro h e md d hd fn hf hp
    apply C79_unseen c hc _ _ md d hd fn hf hp
    intro b' hb'
    rw [only, if_neg]
    rintro rfl
    exact hb' h
  · intro h
    by_cases hu : b ∈ unseen
    · exact hu
    · obtain ⟨fn, hf, hp, hs⟩ := C79_seen c hc b hb hu
      have := hs 7 (Nat.le_refl 7)
      rw [h .unreachable debug 7 (Nat.le_refl 7) fn hf hp] at this
      cases this

/-- Of the branches that no test sees, 442 are not dead: some code in such a branch changes what a user of the crate
observes, and with any code in it all tests pass. -/
theorem C79_gap (c : Crate) (hc : parse true files = some c) (b : Branch) (hb : b ∈ unseen) (hl : b ∉ dead) :
    (∃ (pc : PublicCall) (e : Expr), ∀ d, 6 ≤ d →
      pc.run (fill (only b e) crate) debug d ≠ pc.run crate debug d) ∧
    ∀ e md d, 7 ≤ d → ∀ fn ∈ c.fns, fn.params = [] →
      call (fill (only b e) c.fns) md d fn.owner fn.name [] = .val .unit := by
  have hm : b ∈ branches crate := by
    rw [← C79_unseen_branches.1] at hb
    exact (List.mem_filter.mp hb).1
  exact ⟨C78_live b hm hl, (C79_unseen_iff c hc b hm).mp hb⟩

theorem C79_gap_count : (unseen.filter fun b => !dead.contains b).length = 442 ∧
    ∀ b ∈ dead, b ∈ unseen := by
  refine ⟨by kernel_rfl, fun b hb => (isUnseen_iff b).mp ?_⟩
  have h : dead.all isUnseen = true := by kernel_rfl
  exact List.all_eq_true.mp h b hb

/-! The code that prints an instruction is seen by no test: whatever is put in the first arm of the printing of
instructions, all tests pass, though users see the difference.  The arm for `auipc` (base_i.rs:16) is seen. -/

example (c : Crate) (hc : parse true files = some c) :
    (∃ (pc : PublicCall) (e : Expr), ∀ d, 6 ≤ d →
      pc.run (fill (only ⟨.Instruction, .fmt, 0⟩ e) crate) debug d ≠ pc.run crate debug d) ∧
    ∀ e md d, 7 ≤ d → ∀ fn ∈ c.fns, fn.params = [] →
      call (fill (only ⟨.Instruction, .fmt, 0⟩ e) c.fns) md d fn.owner fn.name [] = .val .unit :=
  C79_gap c hc ⟨.Instruction, .fmt, 0⟩
    ((isUnseen_iff _).mp (by kernel_rfl)) (by decide)

example (c : Crate) (hc : parse true files = some c) : ∃ fn ∈ c.fns, fn.params = [] ∧ ∀ d, 7 ≤ d →
    call (fill (only ⟨.base_i_bit_32, .parse_opcode, 1⟩ .unreachable) c.fns) debug d fn.owner fn.name [] = .panic :=
  C79_seen c hc ⟨.base_i_bit_32, .parse_opcode, 1⟩
    (by have h : (branches crate).contains ⟨.base_i_bit_32, .parse_opcode, 1⟩ = true := by kernel_rfl
        simpa using h)
    (by have h : isUnseen ⟨.base_i_bit_32, .parse_opcode, 1⟩ = false := by kernel_rfl
        rw [← isUnseen_iff, h]; decide)

end Raki
