import Verif.Source.Branches
import Verif.Source.Mono
/-!
# Showing that a public call reaches a branch

A call reaches a branch if it ends differently when other code is put there.
-/

namespace Raki.Source

set_option linter.constructorNameAsVariable false

/-- Other code for one branch. -/
def only (b : Branch) (e : Expr) (c : Branch) : Option Expr := if c = b then some e else none

/-- The same program with `e` in the place of branch `b`. -/
def swap (b : Branch) (e : Expr) (fns : List Fn) : List Fn :=
  fns.map fun fn =>
    if fn.owner = b.owner ∧ fn.name = b.fn then
      { fn with body := (fn.body.fill (fun k => if k = b.index then some e else none) 0).1 }
    else fn

theorem swap_eq (b : Branch) (e : Expr) (fns : List Fn) : swap b e fns = fill (only b e) fns := by
  apply List.map_congr_left
  intro fn _
  split
  · rename_i h
    simp only [Fn.fill, only]
    have : (fun k => if k = b.index then some e else none) =
        fun k => if (⟨fn.owner, fn.name, k⟩ : Branch) = b then some e else none := by
      funext k
      cases b
      simp only [Branch.mk.injEq] at *
      simp only [h, true_and]
    rw [this]
  · rename_i h
    rw [Fn.fill_none]
    intro k
    rw [only, if_neg]
    intro hb
    apply h
    rw [← hb]
    exact ⟨rfl, rfl⟩

def panics : Out Val → Bool
  | .panic => true
  | _ => false

def returns : Out Val → Bool
  | .val _ => true
  | _ => false

/-- The build the calls below are made in: the default one, on a 64-bit machine. -/
def debug : Build := ⟨.checked, .w64⟩

/-- The call ends differently with other code in the branch: it panics instead of returning, or the other way round. -/
def differs (x : Branch × PublicCall) : Bool :=
  (returns (x.2.run crate debug 6) && panics (x.2.run (swap x.1 .unreachable crate) debug 6)) ||
  (panics (x.2.run crate debug 6) &&
    (returns (x.2.run (swap x.1 (.variant .Option .None) crate) debug 6) ||
      returns (x.2.run (swap x.1 (.str "") crate) debug 6)))

/-- A list is checked in parts, for the sake of memory. -/
theorem all_drop {α : Type} {l : List α} {p : α → Bool} {i n : Nat} (h : ((l.drop i).take n).all p = true)
    (h' : (l.drop (i + n)).all p = true) : (l.drop i).all p = true := by
  rw [← List.take_append_drop n (l.drop i), List.all_append, h, List.drop_drop, h']
  rfl

theorem all_zero {α : Type} {l : List α} {p : α → Bool} (h : (l.drop 0).all p = true) : l.all p = true := h

/-- Every public call is a call of a function of the program. -/
theorem run_call (pc : PublicCall) : ∃ o f args, ∀ fns md d, pc.run fns md d = call fns md d o f args := by
  cases pc <;> exact ⟨_, _, _, fun _ _ _ => rfl⟩

theorem run_more (pc : PublicCall) (fns : List Fn) (md : Build) {d : Nat} (h : 6 ≤ d)
    (hs : pc.run fns md 6 ≠ .stuck) : pc.run fns md d = pc.run fns md 6 := by
  obtain ⟨o, f, args, hr⟩ := run_call pc
  rw [hr] at hs
  rw [hr, hr]
  exact call_eq (Sub.refl fns) md h hs

theorem ne_of_panics {x y : Out Val} (hx : returns x = true) (hy : panics y = true) :
    x ≠ .stuck ∧ y ≠ .stuck ∧ x ≠ y := by
  cases x <;> cases hx
  cases y <;> cases hy
  exact ⟨nofun, nofun, nofun⟩

/-- A call that ends differently at depth 6 does so at greater depths. -/
theorem reached {x : Branch × PublicCall} (h : differs x = true) :
    ∃ e, ∀ d, 6 ≤ d → x.2.run (fill (only x.1 e) crate) debug d ≠ x.2.run crate debug d := by
  simp only [differs, Bool.or_eq_true, Bool.and_eq_true, swap_eq] at h
  rcases h with ⟨h1, h2⟩ | ⟨h1, h2 | h2⟩
  · obtain ⟨hs, ht, hne⟩ := ne_of_panics h1 h2
    exact ⟨_, fun d hd he => hne (by rw [← run_more _ _ _ hd hs, ← run_more _ _ _ hd ht, he])⟩
  · obtain ⟨hs, ht, hne⟩ := ne_of_panics h2 h1
    exact ⟨_, fun d hd he => hne (by rw [← run_more _ _ _ hd hs, ← run_more _ _ _ hd ht, he])⟩
  · obtain ⟨hs, ht, hne⟩ := ne_of_panics h2 h1
    exact ⟨_, fun d hd he => hne (by rw [← run_more _ _ _ hd hs, ← run_more _ _ _ hd ht, he])⟩

end Raki.Source
