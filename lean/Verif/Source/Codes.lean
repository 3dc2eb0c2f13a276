import Lean.Elab.Tactic
import Verif.Source.Text
import Verif.Source.Lexer
/-!
# The text of the crate as character codes

Taking a string literal apart with `String.toList` inside the kernel is slow.  `codes_of% t` writes the
character codes of the lines of `t` out as a term, and `kernel_rfl` closes an equation by letting the kernel
compare both sides.  `nf% t` writes out the value of `t`.  None of them is trusted: what they produce is checked by
the kernel like any other proof.
-/

namespace Raki.Source

open Lean Elab Meta in
/-- The character codes of the elements of a list of string literals, as a term. -/
elab "codes_of% " t:term:max : term => do
  let mut e ← Term.elabTermEnsuringType t (mkApp (Lean.mkConst ``List [0]) (Lean.mkConst ``String))
  Term.synthesizeSyntheticMVarsNoPostponing
  e ← instantiateMVars e
  let mut ls : Array String := #[]
  for _ in [0:100000] do
    e ← whnf e
    match e with
    | .app (.app (.app (.const ``List.cons _) _) a) r =>
      let .lit (.strVal s) ← whnf a | throwError "not a literal: {a}"
      ls := ls.push s
      e := r
    | _ => break
  unless e.isAppOf ``List.nil do throwError "not a list: {e}"
  let nat := Lean.mkConst ``Nat
  let lnat := mkApp (Lean.mkConst ``List [0]) nat
  let list (ty : Lean.Expr) (xs : List Lean.Expr) : Lean.Expr :=
    xs.foldr (mkApp3 (Lean.mkConst ``List.cons [0]) ty · ·) (mkApp (Lean.mkConst ``List.nil [0]) ty)
  return list lnat (ls.toList.map fun s => list nat (s.toList.map fun c => mkRawNatLit c.toNat))

open Lean Elab Meta Tactic in
/-- Close `a = b` by reflexivity, leaving the comparison to the kernel. -/
elab "kernel_rfl" : tactic => do
  let g ← getMainGoal
  let some (ty, a, _) := (← instantiateMVars (← g.getType)).consumeMData.eq? | throwError "not an equation"
  g.assign (mkApp2 (Lean.mkConst ``Eq.refl [← getLevel ty]) ty a)

open Lean Meta in
/-- The normal form of a term that computes data. -/
partial def normalForm (e : Lean.Expr) : MetaM Lean.Expr := do
  let e ← ofExceptKernelException (Kernel.whnf (← getEnv) (← getLCtx) e)
  let .const c _ := e.getAppFn | return e
  let some (.ctorInfo i) := (← getEnv).find? c | return e
  let mut as := e.getAppArgs
  for k in [i.numParams:as.size] do
    as := as.set! k (← normalForm as[k]!)
  return mkAppN e.getAppFn as

open Lean Elab Meta in
/-- The value of a term that computes data, written out. -/
elab "nf% " t:term:max : term <= ty => do
  let e ← Term.elabTermEnsuringType t ty
  Term.synthesizeSyntheticMVarsNoPostponing
  normalForm (← instantiateMVars e)

/-- A line with the given character codes. -/
def line (cs : List Nat) : String := String.ofList (cs.map Char.ofNat)

/-- Codes below 128 are characters. -/
def ascii (ls : List (List Nat)) : Bool := ls.all fun l => l.all fun c => Nat.blt c 128

theorem codes_line (cs : List Nat) (h : (cs.all fun c => Nat.blt c 128) = true) : codes (line cs) = cs := by
  simp only [codes, line, String.toList_ofList, List.map_map]
  induction cs with
  | nil => rfl
  | cons c cs ih =>
    simp only [List.all_cons, Bool.and_eq_true] at h
    rw [List.map_cons, ih h.2]
    have hc : c < 128 := by simpa using h.1
    have : (Char.ofNat c).toNat = c := by
      have hv : c.isValidChar := Or.inl (by omega)
      rw [Char.ofNat, dif_pos hv]; rfl
    simp [this]

theorem codes_lines (ls : List (List Nat)) (t : List String) (h : t = ls.map line) (ha : ascii ls = true) :
    t.map codes = ls := by
  subst h
  induction ls with
  | nil => rfl
  | cons l ls ih =>
    simp only [ascii, List.all_cons, Bool.and_eq_true] at ha ih
    simp [codes_line l (by simpa using ha.1), ih (by simpa using ha.2)]

/-- A file as character codes. -/
theorem codes_file (m : String) (mc : List Nat) (t : List String) (ls : List (List Nat)) (hm : [m] = [mc].map line)
    (hma : ascii [mc] = true) (ht : t = ls.map line) (ha : ascii ls = true) :
    (spell (codes m) 0, t.map codes) = (spell mc 0, ls) := by
  have h := codes_lines [mc] [m] hm hma
  rw [codes_lines ls t ht ha]
  simp only [List.map_cons, List.map_nil, List.cons.injEq, and_true] at h
  rw [h]

end Raki.Source
