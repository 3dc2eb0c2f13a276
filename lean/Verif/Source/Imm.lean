import Verif.Source.Operands
/-!
# Running the immediate parsers of the source
-/

namespace Raki.Source
open Raki.Spec

set_option linter.unusedSimpArgs false
set_option maxHeartbeats 2000000

/-- The value of `set` on a `u32`. -/
def setV32 (x : BitVec 32) (ms : List Nat) : BitVec 32 := setVal (U32.set x ms)
/-- The value of `set` on a `u16`. -/
def setV16 (x : BitVec 16) (ms : List Nat) : BitVec 32 := setVal (U16.set x ms)

theorem set32_model (x : BitVec 32) (ms : List Nat) (h : okMask (ms.map .lit) = true) :
    U32.set x ms = .ok (setV32 x ms) := set32_ok x ms h
theorem set16_model (x : BitVec 16) (ms : List Nat) (h : okMask (ms.map .lit) = true) :
    U16.set x ms = .ok (setV16 x ms) := set16_ok x ms h
theorem set32_source (md : Build) (n : Nat) (x : BitVec 32) (vs : List Val) (h : okMask vs = true) :
    call crate md (n + 1) .u32 .«set» [.u32 x, .array vs] = .val (.u32 (setV32 x (vs.map litNat))) :=
  set32_lit md n x vs h
theorem set16_source (md : Build) (n : Nat) (x : BitVec 16) (vs : List Val) (h : okMask vs = true) :
    call crate md (n + 1) .u16 .«set» [.u16 x, .array vs] = .val (.u32 (setV16 x (vs.map litNat))) :=
  set16_lit md n x vs h

/-- Evaluates the bindings at the start of an immediate parser, of the source and of the model. -/
macro "imms" : tactic => `(tactic|
  (simp -implicitDefEqProofs (decide := true) only [
      U32.slice_eq, U16.slice_eq, set32_model, set16_model, to_signed_nbit_eq, RustM.bind_ok]
   simp -implicitDefEqProofs (decide := true) only [run, bindParams, Option.map_some, List.map_cons,
      List.map_nil, eval, evalArgs, evalStmts, Env.get, ite_true, ite_false, reduceCtorEq, bind_val,
      coerce_other, coerce_u16_u16, coerce_u32_u32, typeOf_u16, typeOf_u32,
      slice32_lit, slice16_lit, set32_source, set16_source, signed32_lit, signed16_lit, litNat, or_u32,
      cast_u32_i32]))

theorem base_i_bit_32_parse_imm_eq (md : Build) (n : Nat) (w : BitVec 32) (op : BaseIOpcode) (isa : Isa) :
    call crate md (n + 2) .base_i_bit_32 .parse_imm [.u32 w, emb op, emb isa] =
      outV (BaseI.parse_imm w op isa) := by
  rw [call_base_i_bit_32_parse_imm]
  simp only [base_i_bit_32_parse_imm, BaseI.parse_imm]
  imms
  cases isa <;> cases op <;> rfl

theorem base_i_bit_32_parse_imm_noErr (w : BitVec 32) (op : BaseIOpcode) (isa : Isa) :
    isErr (BaseI.parse_imm w op isa) = false := by
  simp only [BaseI.parse_imm]
  simp -implicitDefEqProofs (decide := true) only [U32.slice_eq, U16.slice_eq, set32_model, set16_model,
    to_signed_nbit_eq, RustM.bind_ok]
  cases isa <;> cases op <;> rfl

theorem m_extension_bit_32_parse_imm_eq (md : Build) (n : Nat) (w : BitVec 32) (op : MOpcode) :
    call crate md (n + 2) .m_extension_bit_32 .parse_imm [.u32 w, emb op] =
      outV (M.parse_imm w op) := by
  cases op <;> rfl

theorem m_extension_bit_32_parse_imm_noErr (w : BitVec 32) (op : MOpcode) :
    isErr (M.parse_imm w op) = false := by
  cases op <;> rfl

theorem a_extension_bit_32_parse_imm_eq (md : Build) (n : Nat) (w : BitVec 32) (op : AOpcode) :
    call crate md (n + 2) .a_extension_bit_32 .parse_imm [.u32 w, emb op] =
      outV (A.parse_imm w op) := by
  rw [call_a_extension_bit_32_parse_imm]
  simp only [a_extension_bit_32_parse_imm, A.parse_imm]
  imms
  cases op <;> rfl

theorem a_extension_bit_32_parse_imm_noErr (w : BitVec 32) (op : AOpcode) :
    isErr (A.parse_imm w op) = false := by
  simp only [A.parse_imm]
  simp -implicitDefEqProofs (decide := true) only [U32.slice_eq, U16.slice_eq, set32_model, set16_model,
    to_signed_nbit_eq, RustM.bind_ok]
  cases op <;> rfl

theorem zifencei_extension_bit_32_parse_imm_eq (md : Build) (n : Nat) (w : BitVec 32) (op : ZifenceiOpcode) :
    call crate md (n + 2) .zifencei_extension_bit_32 .parse_imm [.u32 w, emb op] =
      outV (Zifencei.parse_imm w op) := by
  rw [call_zifencei_extension_bit_32_parse_imm]
  simp only [zifencei_extension_bit_32_parse_imm, Zifencei.parse_imm]
  imms
  cases op <;> rfl

theorem zifencei_extension_bit_32_parse_imm_noErr (w : BitVec 32) (op : ZifenceiOpcode) :
    isErr (Zifencei.parse_imm w op) = false := by
  simp only [Zifencei.parse_imm]
  simp -implicitDefEqProofs (decide := true) only [U32.slice_eq, U16.slice_eq, set32_model, set16_model,
    to_signed_nbit_eq, RustM.bind_ok]
  cases op <;> rfl

theorem zicboz_extension_bit_32_parse_imm_eq (md : Build) (n : Nat) (w : BitVec 32) (op : ZicbozOpcode) :
    call crate md (n + 2) .zicboz_extension_bit_32 .parse_imm [.u32 w, emb op] =
      outV (Zicboz.parse_imm w op) := by
  cases op <;> rfl

theorem zicboz_extension_bit_32_parse_imm_noErr (w : BitVec 32) (op : ZicbozOpcode) :
    isErr (Zicboz.parse_imm w op) = false := by
  cases op <;> rfl

theorem zicsr_extension_bit_32_parse_imm_eq (md : Build) (n : Nat) (w : BitVec 32) (op : ZicsrOpcode) :
    call crate md (n + 2) .zicsr_extension_bit_32 .parse_imm [.u32 w, emb op] =
      outV (Zicsr.parse_imm w op) := by
  rw [call_zicsr_extension_bit_32_parse_imm]
  simp only [zicsr_extension_bit_32_parse_imm, Zicsr.parse_imm]
  imms
  cases op <;> rfl

theorem zicsr_extension_bit_32_parse_imm_noErr (w : BitVec 32) (op : ZicsrOpcode) :
    isErr (Zicsr.parse_imm w op) = false := by
  simp only [Zicsr.parse_imm]
  simp -implicitDefEqProofs (decide := true) only [U32.slice_eq, U16.slice_eq, set32_model, set16_model,
    to_signed_nbit_eq, RustM.bind_ok]
  cases op <;> rfl

theorem zicfiss_extension_bit_32_parse_imm_eq (md : Build) (n : Nat) (w : BitVec 32) (op : ZicfissOpcode) :
    call crate md (n + 2) .zicfiss_extension_bit_32 .parse_imm [.u32 w, emb op] =
      outV (Zicfiss.parse_imm w op) := by
  cases op <;> rfl

theorem zicfiss_extension_bit_32_parse_imm_noErr (w : BitVec 32) (op : ZicfissOpcode) :
    isErr (Zicfiss.parse_imm w op) = false := by
  cases op <;> rfl

theorem zicntr_extension_bit_32_parse_imm_eq (md : Build) (n : Nat) (w : BitVec 32) (op : ZicntrOpcode) :
    call crate md (n + 2) .zicntr_extension_bit_32 .parse_imm [.u32 w, emb op] =
      outV (Zicntr.parse_imm w op) := by
  cases op <;> rfl

theorem zicntr_extension_bit_32_parse_imm_noErr (w : BitVec 32) (op : ZicntrOpcode) :
    isErr (Zicntr.parse_imm w op) = false := by
  cases op <;> rfl

theorem priv_extension_bit_32_parse_imm_eq (md : Build) (n : Nat) (w : BitVec 32) (op : PrivOpcode) :
    call crate md (n + 2) .priv_extension_bit_32 .parse_imm [.u32 w, emb op] =
      outV (Priv.parse_imm w op) := by
  cases op <;> rfl

theorem priv_extension_bit_32_parse_imm_noErr (w : BitVec 32) (op : PrivOpcode) :
    isErr (Priv.parse_imm w op) = false := by
  cases op <;> rfl

theorem c_extension_bit_16_parse_imm_eq (md : Build) (n : Nat) (w : BitVec 16) (op : COpcode) :
    call crate md (n + 2) .c_extension_bit_16 .parse_imm [.u16 w, emb op] =
      outV (C.parse_imm w op) := by
  rw [call_c_extension_bit_16_parse_imm]
  simp only [c_extension_bit_16_parse_imm, C.parse_imm]
  imms
  cases op <;> rfl

theorem c_extension_bit_16_parse_imm_noErr (w : BitVec 16) (op : COpcode) :
    isErr (C.parse_imm w op) = false := by
  simp only [C.parse_imm]
  simp -implicitDefEqProofs (decide := true) only [U32.slice_eq, U16.slice_eq, set32_model, set16_model,
    to_signed_nbit_eq, RustM.bind_ok]
  cases op <;> rfl

theorem zicfiss_extension_bit_16_parse_imm_eq (md : Build) (n : Nat) (w : BitVec 16) (op : ZicfissOpcode) :
    call crate md (n + 2) .zicfiss_extension_bit_16 .parse_imm [.u16 w, emb op] =
      outV (Zicfiss16.parse_imm w op) := by
  cases op <;> rfl

theorem zicfiss_extension_bit_16_parse_imm_noErr (w : BitVec 16) (op : ZicfissOpcode) :
    isErr (Zicfiss16.parse_imm w op) = false := by
  cases op <;> rfl

end Raki.Source
