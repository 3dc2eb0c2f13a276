import Verif.Source.Mono
import Verif.Props.SourceText
import Verif.Props.Derived
import Verif.Props.TestHelpers
/-!
# The test code of the crate

`Source.testCrate` holds the functions of the crate as it is compiled for its tests: those of `Source.crate`, the
helpers of the tests, and the tests.
-/

namespace Raki

open Source

set_option linter.constructorNameAsVariable false

instance : Emb Unit := ⟨fun _ => .unit⟩

/-! ## C76: the test code, read from the text, does what the model of it says -/

/-- C76.  The text of the files, compiled for the tests. -/
theorem C76_parse : parse true files = some ⟨types, testCrate⟩ := parse_tests

theorem crate_sub : Sub crate testCrate := sub_of (by kernel_rfl)

/-- C76.  A run that is not stuck stays the same when calls may nest deeper, in any program. -/
theorem C76_depth (fns : List Fn) (md : Build) (n m : Nat) (h : n ≤ m) (o f : Source.Id) (args : List Val)
    (hn : call fns md n o f args ≠ .stuck) : call fns md m o f args = call fns md n o f args :=
  call_eq (Sub.refl fns) md h hn

/-- C76.  Compiling for the tests changes no run of the crate's functions. -/
theorem C76_same (md : Build) (n m : Nat) (h : n ≤ m) (o f : Source.Id) (args : List Val)
    (hn : call crate md n o f args ≠ .stuck) : call testCrate md m o f args = call crate md n o f args :=
  call_eq crate_sub md h hn

theorem outR_ne {α : Type} [Emb α] (x : RustM α) : outR x ≠ .stuck := by cases x <;> nofun

theorem in_tests {α : Type} [Emb α] {md : Build} {n m : Nat} {o f : Source.Id} {args : List Val} {x : RustM α}
    (h : call crate md n o f args = outR x) (hm : n ≤ m) : call testCrate md m o f args = outR x := by
  rw [C76_same md n m hm o f args (by rw [h]; exact outR_ne x), h]

theorem eqVal_opcode_eq (a b : OpcodeKind) : eqVal (emb a) (emb b) = a.eq b := by
  rw [Bool.eq_iff_iff, C68_eq_opcode, C55_eq_opcode]

theorem eqVal_reg_eq (a b : Option Nat) : eqVal (emb a) (emb b) = eqOption a b := by
  rw [Bool.eq_iff_iff, eqVal_option eqVal_nat, eqOption_iff]

theorem eqVal_imm_eq (a b : Option Int) : eqVal (emb a) (emb b) = eqOption a b := by
  rw [Bool.eq_iff_iff, eqVal_option eqVal_int, eqOption_iff]

theorem cond_assert {b : Bool} {x : Out Val} {y : RustM Unit} (h : leave .other x = outV y) :
    leave .other (cond (.bool (b == true)) x .panic) = outV (rAssert b >>= fun _ => y) := by
  cases b
  · rfl
  · exact h

/-- Evaluates the body of a test helper. -/
macro "test_step" "[" ls:Lean.Parser.Tactic.simpLemma,* "]" : tactic =>
  `(tactic| simp -implicitDefEqProofs only [run, bindParams, Option.map_some, coerce_u32_u32, coerce_u16_u16,
    coerce_other, coerce_reg, coerce_imm, eval, evalStmts, evalArgs, Env.get, reduceCtorEq, ite_true,
    ite_false, bind_val, bind_ret, bind_panic, typeOf_u32, typeOf_u16, outR, unwrapResult, RustM.bind_ok,
    leave_val, leave_panic, $ls,*])

theorem call_test_32 (md : Build) (n : Nat) (args : List Val) :
    call testCrate md (n + 1) .inst_32 .test_32 args = run md (call testCrate md n) inst_32_test_32 args := rfl

theorem test_32_eq (md : Build) (n : Nat) (isa : Isa) (loc : Val) (w : BitVec 32) (op : OpcodeKind)
    (rd rs1 rs2 : Option Nat) (imm : Option Int) :
    call testCrate md (n + 4) .inst_32 .test_32
      [emb isa, loc, .u32 w, emb op, emb rd, emb rs1, emb rs2, emb imm] =
    outV (test_32 isa w op rd rs1 rs2 imm) := by
  rw [call_test_32, test_32]
  simp only [inst_32_test_32]
  test_step [in_tests (u32_parse_opcode_eq md n w isa) (Nat.le_refl _)]
  cases U32.parse_opcode w isa with
  | err e => rfl
  | panic => rfl
  | ok o =>
    test_step [eqVal_opcode_eq]
    apply cond_assert
    test_step [in_tests (u32_parse_rd_eq md n w o) (Nat.le_refl _)]
    cases U32.parse_rd w o with
    | err e => rfl
    | panic => rfl
    | ok a =>
      test_step [eqVal_reg_eq]
      apply cond_assert
      test_step [in_tests (u32_parse_rs1_eq md n w o) (Nat.le_refl _)]
      cases U32.parse_rs1 w o with
      | err e => rfl
      | panic => rfl
      | ok b =>
        test_step [eqVal_reg_eq]
        apply cond_assert
        test_step [in_tests (u32_parse_rs2_eq md n w o) (Nat.le_refl _)]
        cases U32.parse_rs2 w o with
        | err e => rfl
        | panic => rfl
        | ok c =>
          test_step [eqVal_reg_eq]
          apply cond_assert
          test_step [in_tests (u32_parse_imm_eq md n w o isa) (Nat.le_refl _)]
          cases U32.parse_imm w o isa with
          | err e => rfl
          | panic => rfl
          | ok d =>
            test_step [eqVal_imm_eq]
            cases eqOption d imm <;> rfl
theorem call_test_16 (md : Build) (n : Nat) (args : List Val) :
    call testCrate md (n + 1) .inst_16 .test_16 args = run md (call testCrate md n) inst_16_test_16 args := rfl

theorem test_16_eq (md : Build) (n : Nat) (isa : Isa) (loc : Val) (w : BitVec 16) (op : OpcodeKind)
    (rd rs1 rs2 : Option Nat) (imm : Option Int) :
    call testCrate md (n + 5) .inst_16 .test_16
      [emb isa, loc, .u16 w, emb op, emb rd, emb rs1, emb rs2, emb imm] =
    outV (test_16 isa w op rd rs1 rs2 imm) := by
  rw [call_test_16, test_16]
  simp only [inst_16_test_16]
  test_step [in_tests (u16_parse_opcode_eq md n w isa) (Nat.le_refl _)]
  cases U16.parse_opcode w isa with
  | err e => rfl
  | panic => rfl
  | ok o =>
    test_step [eqVal_opcode_eq]
    apply cond_assert
    test_step [in_tests (u16_parse_rd_eq md (n + 1) w o) (Nat.le_refl _)]
    cases U16.parse_rd w o with
    | err e => rfl
    | panic => rfl
    | ok a =>
      test_step [eqVal_reg_eq]
      apply cond_assert
      test_step [in_tests (u16_parse_rs1_eq md (n + 1) w o) (Nat.le_refl _)]
      cases U16.parse_rs1 w o with
      | err e => rfl
      | panic => rfl
      | ok b =>
        test_step [eqVal_reg_eq]
        apply cond_assert
        test_step [in_tests (u16_parse_rs2_eq md (n + 1) w o) (Nat.le_refl _)]
        cases U16.parse_rs2 w o with
        | err e => rfl
        | panic => rfl
        | ok c =>
          test_step [eqVal_reg_eq]
          apply cond_assert
          test_step [in_tests (u16_parse_imm_eq md (n + 1) w o isa) (Nat.le_refl _)]
          cases U16.parse_imm w o isa with
          | err e => rfl
          | panic => rfl
          | ok d =>
            test_step [eqVal_imm_eq]
            cases eqOption d imm <;> rfl
theorem call_test_32_in_rv32 (md : Build) (n : Nat) (args : List Val) :
    call testCrate md (n + 1) .inst_32 .test_32_in_rv32 args =
      run md (call testCrate md n) inst_32_test_32_in_rv32 args := rfl

theorem test_32_in_rv32_eq (md : Build) (n : Nat) (w : BitVec 32) (op : OpcodeKind) (rd rs1 rs2 : Option Nat)
    (imm : Option Int) :
    call testCrate md (n + 5) .inst_32 .test_32_in_rv32 [.u32 w, emb op, emb rd, emb rs1, emb rs2, emb imm] =
    outV (test_32_in_rv32 w op rd rs1 rs2 imm) := by
  have h := test_32_eq md n .Rv32 .unit w op rd rs1 rs2 imm
  rw [call_test_32_in_rv32, inst_32_test_32_in_rv32, test_32_in_rv32]
  test_step []
  rw [show Val.variant .Isa .Rv32 = emb Isa.Rv32 from rfl, h]
  cases test_32 .Rv32 w op rd rs1 rs2 imm <;> rfl

theorem call_test_32_in_rv64 (md : Build) (n : Nat) (args : List Val) :
    call testCrate md (n + 1) .inst_32 .test_32_in_rv64 args =
      run md (call testCrate md n) inst_32_test_32_in_rv64 args := rfl

theorem test_32_in_rv64_eq (md : Build) (n : Nat) (w : BitVec 32) (op : OpcodeKind) (rd rs1 rs2 : Option Nat)
    (imm : Option Int) :
    call testCrate md (n + 5) .inst_32 .test_32_in_rv64 [.u32 w, emb op, emb rd, emb rs1, emb rs2, emb imm] =
    outV (test_32_in_rv64 w op rd rs1 rs2 imm) := by
  have h := test_32_eq md n .Rv64 .unit w op rd rs1 rs2 imm
  rw [call_test_32_in_rv64, inst_32_test_32_in_rv64, test_32_in_rv64]
  test_step []
  rw [show Val.variant .Isa .Rv64 = emb Isa.Rv64 from rfl, h]
  cases test_32 .Rv64 w op rd rs1 rs2 imm <;> rfl

theorem call_test_16_in_rv32 (md : Build) (n : Nat) (args : List Val) :
    call testCrate md (n + 1) .inst_16 .test_16_in_rv32 args =
      run md (call testCrate md n) inst_16_test_16_in_rv32 args := rfl

theorem test_16_in_rv32_eq (md : Build) (n : Nat) (w : BitVec 16) (op : OpcodeKind) (rd rs1 rs2 : Option Nat)
    (imm : Option Int) :
    call testCrate md (n + 6) .inst_16 .test_16_in_rv32 [.u16 w, emb op, emb rd, emb rs1, emb rs2, emb imm] =
    outV (test_16_in_rv32 w op rd rs1 rs2 imm) := by
  have h := test_16_eq md n .Rv32 .unit w op rd rs1 rs2 imm
  rw [call_test_16_in_rv32, inst_16_test_16_in_rv32, test_16_in_rv32]
  test_step []
  rw [show Val.variant .Isa .Rv32 = emb Isa.Rv32 from rfl, h]
  cases test_16 .Rv32 w op rd rs1 rs2 imm <;> rfl

theorem call_test_16_in_rv64 (md : Build) (n : Nat) (args : List Val) :
    call testCrate md (n + 1) .inst_16 .test_16_in_rv64 args =
      run md (call testCrate md n) inst_16_test_16_in_rv64 args := rfl

theorem test_16_in_rv64_eq (md : Build) (n : Nat) (w : BitVec 16) (op : OpcodeKind) (rd rs1 rs2 : Option Nat)
    (imm : Option Int) :
    call testCrate md (n + 6) .inst_16 .test_16_in_rv64 [.u16 w, emb op, emb rd, emb rs1, emb rs2, emb imm] =
    outV (test_16_in_rv64 w op rd rs1 rs2 imm) := by
  have h := test_16_eq md n .Rv64 .unit w op rd rs1 rs2 imm
  rw [call_test_16_in_rv64, inst_16_test_16_in_rv64, test_16_in_rv64]
  test_step []
  rw [show Val.variant .Isa .Rv64 = emb Isa.Rv64 from rfl, h]
  cases test_16 .Rv64 w op rd rs1 rs2 imm <;> rfl

/-- The closure of the test `zicfiss_16`, as a function: its parameters and its body are in the tree of the test. -/
def zicfissClosure : Fn :=
  match zicfiss_extension_test_zicfiss_zicfiss_16.body with
  | .block (.letFn o x ps b _) => ⟨o, x, ps, .other, b⟩
  | b => ⟨.zicfiss_extension_test_zicfiss, .test_16, [], .other, b⟩

theorem rv64 : Val.variant .Isa .Rv64 = emb Isa.Rv64 := rfl

theorem zicfissClosure_eq (md : Build) (n : Nat) (w : BitVec 16) (op : OpcodeKind) (rd rs1 rs2 : Option Nat)
    (imm : Option Int) :
    run md (call testCrate md (n + 4)) zicfissClosure [.u16 w, emb op, emb rd, emb rs1, emb rs2, emb imm] =
    outV (zicfiss_test_16 w op rd rs1 rs2 imm) := by
  rw [zicfiss_test_16]
  simp only [zicfissClosure, zicfiss_extension_test_zicfiss_zicfiss_16]
  test_step [rv64, in_tests (u16_parse_opcode_eq md n w .Rv64) (Nat.le_refl _)]
  cases U16.parse_opcode w .Rv64 with
  | err e => rfl
  | panic => rfl
  | ok o =>
    test_step [match_var, unwrap_Ok]
    apply cond_assert (b := true)
    test_step [in_tests (u16_parse_rd_eq md (n + 1) w o) (Nat.le_refl _)]
    cases U16.parse_rd w o with
    | err e => rfl
    | panic => rfl
    | ok a =>
      test_step [unwrap_Ok, eqVal_reg_eq]
      apply cond_assert
      test_step [in_tests (u16_parse_rs1_eq md (n + 1) w o) (Nat.le_refl _)]
      cases U16.parse_rs1 w o with
      | err e => rfl
      | panic => rfl
      | ok b =>
        test_step [unwrap_Ok, eqVal_reg_eq]
        apply cond_assert
        test_step [in_tests (u16_parse_rs2_eq md (n + 1) w o) (Nat.le_refl _)]
        cases U16.parse_rs2 w o with
        | err e => rfl
        | panic => rfl
        | ok c =>
          test_step [unwrap_Ok, eqVal_reg_eq]
          apply cond_assert
          test_step [rv64, in_tests (u16_parse_imm_eq md (n + 1) w o .Rv64) (Nat.le_refl _)]
          cases U16.parse_imm w o .Rv64 with
          | err e => rfl
          | panic => rfl
          | ok d =>
            test_step [unwrap_Ok, eqVal_imm_eq]
            cases eqOption d imm <;> rfl

/-- C76.  Running the helpers read from the text, for all arguments, in every build.  The second argument of
`test_32` and `test_16` is a source location, which only messages use. -/
theorem C76_helpers (c : Crate) (hc : parse true files = some c) (md : Build) (d : Nat) (hd : 6 ≤ d) (isa : Isa)
    (loc : Val) (w : BitVec 32) (h : BitVec 16) (op : OpcodeKind) (rd rs1 rs2 : Option Nat) (imm : Option Int) :
    call c.fns md d .inst_32 .test_32 [emb isa, loc, emb w, emb op, emb rd, emb rs1, emb rs2, emb imm] =
      outV (test_32 isa w op rd rs1 rs2 imm) ∧
    call c.fns md d .inst_32 .test_32_in_rv32 [emb w, emb op, emb rd, emb rs1, emb rs2, emb imm] =
      outV (test_32_in_rv32 w op rd rs1 rs2 imm) ∧
    call c.fns md d .inst_32 .test_32_in_rv64 [emb w, emb op, emb rd, emb rs1, emb rs2, emb imm] =
      outV (test_32_in_rv64 w op rd rs1 rs2 imm) ∧
    call c.fns md d .inst_16 .test_16 [emb isa, loc, emb h, emb op, emb rd, emb rs1, emb rs2, emb imm] =
      outV (test_16 isa h op rd rs1 rs2 imm) ∧
    call c.fns md d .inst_16 .test_16_in_rv32 [emb h, emb op, emb rd, emb rs1, emb rs2, emb imm] =
      outV (test_16_in_rv32 h op rd rs1 rs2 imm) ∧
    call c.fns md d .inst_16 .test_16_in_rv64 [emb h, emb op, emb rd, emb rs1, emb rs2, emb imm] =
      outV (test_16_in_rv64 h op rd rs1 rs2 imm) := by
  rw [C76_parse] at hc
  cases hc
  obtain ⟨n, rfl⟩ := depth_le hd
  exact ⟨test_32_eq md (n + 2) .., test_32_in_rv32_eq md (n + 1) .., test_32_in_rv64_eq md (n + 1) ..,
    test_16_eq md (n + 1) .., test_16_in_rv32_eq md n .., test_16_in_rv64_eq md n ..⟩

/-- C76.  Running the closure in the test `zicfiss_16`. -/
theorem C76_closure (md : Build) (d : Nat) (hd : 4 ≤ d) (w : BitVec 16) (op : OpcodeKind) (rd rs1 rs2 : Option Nat)
    (imm : Option Int) :
    run md (call testCrate md d) zicfissClosure [emb w, emb op, emb rd, emb rs1, emb rs2, emb imm] =
      outV (zicfiss_test_16 w op rd rs1 rs2 imm) := by
  obtain ⟨n, rfl⟩ := depth_le hd
  exact zicfissClosure_eq md n w op rd rs1 rs2 imm

theorem outV_unit (x : RustM Unit) : outV x = .val .unit ↔ x = .ok () := by
  cases x with
  | ok u => exact ⟨fun _ => rfl, fun _ => rfl⟩
  | err e => exact ⟨nofun, nofun⟩
  | panic => exact ⟨nofun, nofun⟩

/-- C76.  So, in the source, an expectation written with the helpers holds exactly if the word decodes to an
instruction with the opcode and the four operands expected. -/
theorem C76_expectations (c : Crate) (hc : parse true files = some c) (md : Build) (d : Nat) (hd : 6 ≤ d) (isa : Isa)
    (loc : Val) (w : BitVec 32) (h : BitVec 16) (op : OpcodeKind) (rd rs1 rs2 : Option Nat) (imm : Option Int) :
    (call c.fns md d .inst_32 .test_32 [emb isa, loc, emb w, emb op, emb rd, emb rs1, emb rs2, emb imm] = .val .unit ↔
      ∃ i, U32.decode w isa = .ok i ∧ shows i op rd rs1 rs2 imm) ∧
    (call c.fns md d .inst_16 .test_16 [emb isa, loc, emb h, emb op, emb rd, emb rs1, emb rs2, emb imm] = .val .unit ↔
      ∃ i, U16.decode h isa = .ok i ∧ shows i op rd rs1 rs2 imm) := by
  obtain ⟨h1, -, -, h2, -, -⟩ := C76_helpers c hc md d hd isa loc w h op rd rs1 rs2 imm
  rw [h1, h2, outV_unit, outV_unit]
  exact ⟨C75_test_32 .., C75_test_16 ..⟩

/-! ### The tests -/

/-- The functions without parameters: the tests. -/
def testFns : List Fn := testCrate.filter (·.params.isEmpty)

/-- C76.  The tests of the crate. -/
theorem C76_tests : testFns.map (fun fn => (fn.owner, fn.name)) =
    [(.lib_tests, .usize_try_from_test), (.lib_tests, .inst_eq_test), (.a_extension_test_a, .a_decode_test),
     (.base_i_test_basei, .basei_decode_test), (.c_extension_test_c, .c_decode_test),
     (.m_extension_test_m, .m_decode_test), (.priv_extension_test_priv, .priv_decode_test),
     (.zicboz_extension_test_zicboz, .zicboz_decode_test),
     (.zicfiss_extension_test_zicfiss, .zicfiss_32bit_decode_test), (.zicfiss_extension_test_zicfiss, .zicfiss_16),
     (.zicntr_extension_test_zicntr, .zicntr_decode_test), (.zicsr_extension_test_zicsr, .zicsr_decode_test),
     (.zifencei_extension_test_zifenci, .zifenci_decode_test)] := by
  kernel_rfl

/-- What the tests return at depth 7. -/
def testRuns (md : Build) : List (Out Val) := testFns.map fun fn => call testCrate md 7 fn.owner fn.name []

theorem runs_checked_w16 : testRuns ⟨.checked, .w16⟩ = List.replicate 13 (.val .unit) := by kernel_rfl
theorem runs_checked_w32 : testRuns ⟨.checked, .w32⟩ = List.replicate 13 (.val .unit) := by kernel_rfl
theorem runs_checked_w64 : testRuns ⟨.checked, .w64⟩ = List.replicate 13 (.val .unit) := by kernel_rfl
theorem runs_wrapping_w16 : testRuns ⟨.wrapping, .w16⟩ = List.replicate 13 (.val .unit) := by kernel_rfl
theorem runs_wrapping_w32 : testRuns ⟨.wrapping, .w32⟩ = List.replicate 13 (.val .unit) := by kernel_rfl
theorem runs_wrapping_w64 : testRuns ⟨.wrapping, .w64⟩ = List.replicate 13 (.val .unit) := by kernel_rfl

theorem runs_all : ∀ md, testRuns md = List.replicate 13 (.val .unit)
  | ⟨.checked, .w16⟩ => runs_checked_w16
  | ⟨.checked, .w32⟩ => runs_checked_w32
  | ⟨.checked, .w64⟩ => runs_checked_w64
  | ⟨.wrapping, .w16⟩ => runs_wrapping_w16
  | ⟨.wrapping, .w32⟩ => runs_wrapping_w32
  | ⟨.wrapping, .w64⟩ => runs_wrapping_w64

/-- C76.  Every test of the crate passes, in every build.  (With pointers of 16 bits Rust refuses to compile the
tests of `lib.rs`, whose literals do not fit a `usize`.) -/
theorem C76_pass (c : Crate) (hc : parse true files = some c) (md : Build) (d : Nat) (hd : 7 ≤ d) (fn : Fn)
    (hf : fn ∈ c.fns) (hp : fn.params = []) : call c.fns md d fn.owner fn.name [] = .val .unit := by
  rw [C76_parse] at hc
  cases hc
  have hm : fn ∈ testFns := List.mem_filter.2 ⟨hf, by rw [hp]; rfl⟩
  have h : call testCrate md 7 fn.owner fn.name [] = .val .unit := by
    have : call testCrate md 7 fn.owner fn.name [] ∈ testRuns md := List.mem_map.2 ⟨fn, hm, rfl⟩
    rw [runs_all] at this
    exact List.eq_of_mem_replicate this
  rw [C76_depth testCrate md 7 d hd _ _ _ (by rw [h]; nofun), h]

-- an expectation that fails
example : call testCrate ⟨.checked, .w64⟩ 6 .inst_32 .test_32_in_rv64
    [.u32 0x02d706b3#32, emb (OpcodeKind.M .MUL), emb (some 13), emb (some 14), emb (some 14), emb (none : Option Int)] =
    .panic := by kernel_rfl

end Raki
