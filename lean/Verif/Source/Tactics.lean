import Verif.Source.Helpers
import Verif.Model.Inst32
import Verif.Model.Inst16
/-!
# Tactics for running the source
-/

namespace Raki.Source
open Raki.Spec

/-- As `run_source`, but stops at `match`. -/
macro "run_lets" "[" ls:Lean.Parser.Tactic.simpLemma,* "]" : tactic =>
  `(tactic| simp -implicitDefEqProofs only [run, bindParams, Option.map_some, List.map_cons, List.map_nil, eval, evalArgs,
      evalFields, evalStmts, Env.get, getField, reduceCtorEq, ite_true, ite_false,
      coerce_other, coerce_u8_u8, coerce_u8_lit, coerce_u16_u16, coerce_u16_lit, coerce_u32_u32,
      coerce_u32_lit, coerce_usize_usize, coerce_usize_lit, coerce_i32_i32, coerce_i32_lit, coerce_some,
      coerce_none, coerce_ok, coerce_err, coerce_array, leave_val, leave_ret, leave_panic, leave_ite,
      add_u16_checked, add_u16_lit_checked, add_u32_checked, add_u32_lit_checked, sub_u16_checked,
      sub_u16_lit_checked, sub_u32_checked, sub_u32_lit_checked, sub_i32_checked, sub_i32_lit_checked,
      shl_u16_usize_checked, shl_u16_lit_checked, shl_u16_u32_checked, shl_u32_usize_checked,
      shl_u32_lit_checked, shl_u32_u32_checked, shr_u16_usize_checked, shr_u16_lit_checked,
      shr_u16_u32_checked, shr_u32_usize_checked, shr_u32_lit_checked, shr_u32_u32_checked,
      shr_i32_lit_checked, shr_i32_u32_checked, pow_u16_checked, pow_u32_checked, pow_i32_checked,
      add_u16_wrapping, add_u16_lit_wrapping, add_u32_wrapping, add_u32_lit_wrapping, sub_u16_wrapping,
      sub_u16_lit_wrapping, sub_u32_wrapping, sub_u32_lit_wrapping, sub_i32_wrapping,
      sub_i32_lit_wrapping, shl_u16_usize_wrapping, shl_u16_lit_wrapping, shl_u16_u32_wrapping,
      shl_u32_usize_wrapping, shl_u32_lit_wrapping, shl_u32_u32_wrapping, shr_u16_usize_wrapping,
      shr_u16_lit_wrapping, shr_u16_u32_wrapping, shr_u32_usize_wrapping, shr_u32_lit_wrapping,
      shr_u32_u32_wrapping, shr_i32_lit_wrapping, shr_i32_u32_wrapping, pow_u16_wrapping,
      pow_u32_wrapping, pow_i32_wrapping, and_u16, and_u16_lit, eq_u16_lit, and_u32, and_u32_lit,
      eq_u32_lit, or_u32, and_i32, and_i32_lit, and_usize_lit, eq_usize_lit, eq_i32_lit, ge_u32,
      ofRust_ok, ofRust_panic, ofRust_err, bind_stuck, leave_stuck, cast_u16_usize, cast_u32_usize, cast_u32_i32, from_u16, into_u8,
      unwrap_Some, unwrap_Ok, unwrap_None, unwrap_Err, unwrap_ite, question_ok, question_err, try_u8_u16,
      try_u8_u32, try_u16_u32, try_u16_usize, try_u32_usize, unsigned_u8, unsigned_u16, unsigned_u32,
      unsigned_usize, typeOf_u16, typeOf_u32, typeOf_variant, typeOf_variantOf, typeOf_struct, match_wild,
      match_var, match_lit, match_range, match_ctor, match_ctor1, match_ctor1_none, match_or, bind_val,
      bind_ret, bind_panic, bind_ite, cond_decide,
      $ls,*])

/-- The model's outcome is an error. -/
def isErr {α : Type} : RustM α → Bool
  | .err _ => true
  | _ => false

theorem unwrap_u8_fld (w e s : Nat) (h : e + 1 - s ≤ 8) :
    unwrapVal (inRange Val.u8 (2 ^ 8) (fld w e s)) = .val (.u8 (fld w e s)) := by
  have := fld_lt w e s
  have h2 : 2 ^ (e + 1 - s) ≤ 2 ^ 8 := Nat.pow_le_pow_right (by decide) h
  rw [inRange, if_pos (by omega)]; rfl

theorem unwrap_u16_fld (w e s : Nat) (h : e + 1 - s ≤ 16) :
    unwrapVal (inRange (fun n => .u16 (BitVec.ofNat 16 n)) (2 ^ 16) (fld w e s)) =
      .val (.u16 (BitVec.ofNat 16 (fld w e s))) := by
  have := fld_lt w e s
  have h2 : 2 ^ (e + 1 - s) ≤ 2 ^ 16 := Nat.pow_le_pow_right (by decide) h
  rw [inRange, if_pos (by omega)]; rfl


theorem usize_fld (p : PtrWidth) (w e s : Nat) (h : e + 1 - s ≤ 16) : fld w e s % 2 ^ p.bits = fld w e s := by
  have := fld_lt w e s
  have h2 : 2 ^ (e + 1 - s) ≤ 2 ^ 16 := Nat.pow_le_pow_right (by decide) h
  have h3 : 2 ^ 16 ≤ 2 ^ p.bits := Nat.pow_le_pow_right (by decide) (by cases p <;> decide)
  exact Nat.mod_eq_of_lt (by omega)

theorem widen16 (w e s : Nat) (h : e + 1 - s ≤ 16) :
    ∃ x : BitVec 16, BitVec.ofNat 16 (fld w e s) = x ∧ fld w e s = x.toNat :=
  ⟨_, rfl, (by rw [BitVec.toNat_ofNat]; have := fld_lt w e s; have h2 : 2 ^ (e + 1 - s) ≤ 2 ^ 16 := Nat.pow_le_pow_right (by decide) h; omega)⟩

/-! ## Choosing an arm

Stated so that `simp` picks an arm without looking inside the others. -/

theorem lit_eq_u8 {α : Type} (m n : Nat) (h : m = n) (env : Env) (k : Env → Out α) (fail : Out α) :
    matchPat (.u8 m) env (.lit n) k fail = k env := by simp [matchPat, unsigned, h]
theorem lit_ne_u8 {α : Type} (m n : Nat) (h : ¬ m = n) (env : Env) (k : Env → Out α)
    (fail : Out α) : matchPat (.u8 m) env (.lit n) k fail = fail := by simp [matchPat, unsigned, h]

theorem lit_eq_u16 {α : Type} (x : BitVec 16) (n : Nat) (h : x.toNat = n) (env : Env) (k : Env → Out α) (fail : Out α) :
    matchPat (.u16 x) env (.lit n) k fail = k env := by simp [matchPat, unsigned, h]
theorem lit_ne_u16 {α : Type} (x : BitVec 16) (n : Nat) (h : ¬ x.toNat = n) (env : Env) (k : Env → Out α)
    (fail : Out α) : matchPat (.u16 x) env (.lit n) k fail = fail := by simp [matchPat, unsigned, h]

theorem lit_eq_u32 {α : Type} (x : BitVec 32) (n : Nat) (h : x.toNat = n) (env : Env) (k : Env → Out α) (fail : Out α) :
    matchPat (.u32 x) env (.lit n) k fail = k env := by simp [matchPat, unsigned, h]
theorem lit_ne_u32 {α : Type} (x : BitVec 32) (n : Nat) (h : ¬ x.toNat = n) (env : Env) (k : Env → Out α)
    (fail : Out α) : matchPat (.u32 x) env (.lit n) k fail = fail := by simp [matchPat, unsigned, h]

theorem lit_eq_usize {α : Type} (m n : Nat) (h : m = n) (env : Env) (k : Env → Out α) (fail : Out α) :
    matchPat (.usize m) env (.lit n) k fail = k env := by simp [matchPat, unsigned, h]
theorem lit_ne_usize {α : Type} (m n : Nat) (h : ¬ m = n) (env : Env) (k : Env → Out α)
    (fail : Out α) : matchPat (.usize m) env (.lit n) k fail = fail := by simp [matchPat, unsigned, h]

theorem ctor_eq {α : Type} (t c : Id) (env : Env) (k : Env → Out α) (fail : Out α) :
    matchPat (.variant t c) env (.ctor t c) k fail = k env := by simp [matchPat]
theorem ctor_ne {α : Type} (t c d : Id) (h : ¬ c = d) (env : Env) (k : Env → Out α) (fail : Out α) :
    matchPat (.variant t d) env (.ctor t c) k fail = fail := by simp [matchPat, h]
theorem ctor1_eq {α : Type} (t c : Id) (v : Val) (p : Pat) (env : Env) (k : Env → Out α) (fail : Out α) :
    matchPat (.variantOf t c v) env (.ctor1 t c p) k fail = matchPat v env p k fail := by simp [matchPat]
theorem ctor1_ne {α : Type} (t c d : Id) (h : ¬ c = d) (v : Val) (p : Pat) (env : Env) (k : Env → Out α)
    (fail : Out α) : matchPat (.variantOf t d v) env (.ctor1 t c p) k fail = fail := by simp [matchPat, h]
theorem ctor_of {α : Type} (t c d : Id) (v : Val) (env : Env) (k : Env → Out α)
    (fail : Out α) : matchPat (.variantOf t d v) env (.ctor t c) k fail = fail := by simp [matchPat]
theorem ctor1_of {α : Type} (t c d : Id) (p : Pat) (env : Env) (k : Env → Out α)
    (fail : Out α) : matchPat (.variant t d) env (.ctor1 t c p) k fail = fail := by simp [matchPat]
theorem emb_rv32 : emb Isa.Rv32 = Val.variant .Isa .Rv32 := rfl
theorem emb_rv64 : emb Isa.Rv64 = Val.variant .Isa .Rv64 := rfl
theorem emb_u32 (w : BitVec 32) : emb w = Val.u32 w := rfl
theorem emb_u16 (w : BitVec 16) : emb w = Val.u16 w := rfl

/-- Evaluates matches, using the hypotheses to choose arms. -/
macro "walk" "[" ls:Lean.Parser.Tactic.simpLemma,* "]" : tactic =>
  `(tactic| simp -implicitDefEqProofs (decide := true) only [run, bindParams, Option.map_some,
      List.map_cons, List.map_nil, coerce_u16_u16, coerce_u32_u32,
      evalArms, eval, evalArgs, bind_val, bind_ret, Env.get, ↓lit_eq_u8, ↓lit_ne_u8,
      ↓lit_eq_u16, ↓lit_ne_u16, ↓lit_eq_u32, ↓lit_ne_u32, ↓lit_eq_usize, ↓lit_ne_usize, ↓ctor_eq, ↓ctor_ne,
      ↓ctor1_eq, ↓ctor1_ne, ↓ctor_of, ↓ctor1_of, emb_rv32, emb_rv64, ↓match_or, ↓match_wild, leave_val,
      leave_ret, coerce_ok, coerce_err, coerce_other, reduceCtorEq, ite_true, ite_false, *, $ls,*])

/-- Evaluates the bindings at the start of a function. -/
macro "rl" "[" ls:Lean.Parser.Tactic.simpLemma,* "]" : tactic =>
 `(tactic| run_lets [slice32_lit, slice16_lit, signed32_lit, signed16_lit, set32_lit, set16_lit,
     Nat.reduceLeDiff, Nat.reduceSub, Nat.reduceAdd, Nat.reduceLT, toNat_ofNat_fld32, toNat_ofNat_fld16,
     unwrap_u8_fld, unwrap_u16_fld, usize_fld, $ls,*])

/-- Evaluates the same bindings of the model. -/
macro "fields" : tactic => `(tactic|
  simp only [U32.slice_eq, U16.slice_eq, Nat.reduceLeDiff, Nat.reduceSub, Nat.reduceAdd, Nat.reduceLT,
      toNat_ofNat_fld32, toNat_ofNat_fld16, tryU8_fld, tryU16_fld, RustM.bind_ok])

/-- Follows the model's matches and evaluates the source in each case. -/
macro "arms" "[" ls:Lean.Parser.Tactic.simpLemma,* "]" : tactic => `(tactic|
  (apply Eq.symm
   repeat' split
   all_goals first
     | rfl
     | ((try simp only [imp_false] at *)
        walk [$ls,*]
        try rfl)))

end Raki.Source
