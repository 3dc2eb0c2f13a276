import Verif.Release.Decode
/-!
# Debug and release builds compute the same values

`Refines d r`: if the debug computation `d` does not panic, the release computation `r` has the same
outcome.  The relation is preserved by sequencing, so it holds of whole functions once it holds of the
arithmetic operations.
-/

namespace Raki

/-- Whenever `d` does not panic, `r` has the same outcome. -/
def Refines {α : Type} (d r : RustM α) : Prop := d = .panic ∨ r = d

namespace Refines

theorem rfl' {α : Type} {x : RustM α} : Refines x x := .inr rfl

theorem panic {α : Type} {x : RustM α} : Refines .panic x := .inl rfl

theorem bind {α β : Type} {d r : RustM α} {f g : α → RustM β} (h : Refines d r)
    (k : ∀ a, d = .ok a → Refines (f a) (g a)) : Refines (d >>= f) (r >>= g) := by
  rcases h with h | h
  · subst h; exact .inl rfl
  · subst h
    cases r with
    | ok a => exact k a rfl
    | err e => exact .inr rfl
    | panic => exact .inr rfl

theorem eq {α : Type} {d r : RustM α} (h : Refines d r) (hd : d ≠ .panic) : r = d :=
  h.resolve_left hd

end Refines

open Refines

theorem shrU_refines {n : Nat} (x : BitVec n) (k : Nat) : Refines (shrU x k) (Release.shrU x k) := by
  unfold shrU Release.shrU
  split
  · rename_i h; rw [Nat.mod_eq_of_lt h]; exact rfl'
  · exact .panic

theorem shlU_refines {n : Nat} (x : BitVec n) (k : Nat) : Refines (shlU x k) (Release.shlU x k) := by
  unfold shlU Release.shlU
  split
  · rename_i h; rw [Nat.mod_eq_of_lt h]; exact rfl'
  · exact .panic

theorem subU_refines {n : Nat} (x y : BitVec n) : Refines (subU x y) (Release.subU x y) := by
  unfold subU Release.subU
  split
  · exact rfl'
  · exact .panic

theorem addU_refines {n : Nat} (x y : BitVec n) : Refines (addU x y) (Release.addU x y) := by
  unfold addU Release.addU
  split
  · exact rfl'
  · exact .panic

theorem chkI32_refines (z : Int) : Refines (chkI32 z) (Release.chkI32 z) := by
  unfold chkI32 Release.chkI32
  split
  · rename_i h
    refine .inr ?_
    rw [BitVec.toInt_ofInt, Int.bmod_eq_of_le] <;> omega
  · exact .panic

theorem sarI32_refines (x : Int) (k : Nat) : Refines (sarI32 x k) (Release.sarI32 x k) := by
  unfold sarI32 Release.sarI32
  split
  · rename_i h; rw [Nat.mod_eq_of_lt h]; exact rfl'
  · exact .panic

/-- A power of two that fits has an exponent below the width. -/
theorem pow_fits {n k : Nat} (h : 2 ^ k < 2 ^ n) : k < n :=
  (Nat.pow_lt_pow_iff_right (by omega : 1 < 2)).1 h

theorem slice32_refines (w : BitVec 32) (e s : Nat) :
    Refines (U32.slice w e s) (Release.U32.slice w e s) := by
  unfold U32.slice Release.U32.slice
  refine bind rfl' fun _ _ => bind (shrU_refines _ _) fun a _ => ?_
  unfold subNat Release.subNat powU Release.powU
  by_cases h : s ≤ e
  · rw [if_pos h]
    by_cases h2 : 2 ^ (e - s + 1) < 2 ^ 32
    · have h3 := pow_fits h2
      have h4 : ((e + 2 ^ 32 - s) % 2 ^ 32 + 1) % 2 ^ 32 = e - s + 1 := by omega
      refine .inr ?_
      simp only [Bind.bind, RustM.bind, h4, if_pos h2]
      have h5 : (1 : BitVec 32).toNat ≤ (BitVec.ofNat 32 (2 ^ (e - s + 1))).toNat := by
        rw [BitVec.toNat_ofNat, Nat.mod_eq_of_lt h2]
        exact Nat.one_le_two_pow
      simp only [subU, Release.subU, if_pos h5]
    · refine .inl ?_
      simp only [Bind.bind, RustM.bind, if_neg h2]
  · rw [if_neg h]; exact .inl rfl

theorem slice16_refines (w : BitVec 16) (e s : Nat) :
    Refines (U16.slice w e s) (Release.U16.slice w e s) := by
  unfold U16.slice Release.U16.slice
  refine bind rfl' fun _ _ => bind (shrU_refines _ _) fun a _ => ?_
  unfold subNat Release.subNat powU Release.powU
  by_cases h : s ≤ e
  · rw [if_pos h]
    by_cases h2 : 2 ^ (e - s + 1) < 2 ^ 16
    · have h3 := pow_fits h2
      have h4 : ((e + 2 ^ 32 - s) % 2 ^ 32 + 1) % 2 ^ 32 = e - s + 1 := by omega
      refine .inr ?_
      simp only [Bind.bind, RustM.bind, h4, if_pos h2]
      have h5 : (1 : BitVec 16).toNat ≤ (BitVec.ofNat 16 (2 ^ (e - s + 1))).toNat := by
        rw [BitVec.toNat_ofNat, Nat.mod_eq_of_lt h2]
        exact Nat.one_le_two_pow
      simp only [subU, Release.subU, if_pos h5]
    · refine .inl ?_
      simp only [Bind.bind, RustM.bind, if_neg h2]
  · rw [if_neg h]; exact .inl rfl

theorem setLoop_refines (w : BitVec 32) (ms : List Nat) (i : Nat) (acc : BitVec 32) :
    Refines (setLoop w ms i acc) (Release.setLoop w ms i acc) := by
  induction ms generalizing i acc with
  | nil => exact rfl'
  | cons m ms ih =>
    unfold setLoop Release.setLoop
    exact bind (shrU_refines _ _) fun a _ => bind (shlU_refines _ _) fun b _ => ih _ _

theorem set32_refines (w : BitVec 32) (ms : List Nat) : Refines (U32.set w ms) (Release.U32.set w ms) :=
  setLoop_refines _ _ _ _

theorem set16_refines (w : BitVec 16) (ms : List Nat) : Refines (U16.set w ms) (Release.U16.set w ms) :=
  setLoop_refines _ _ _ _

theorem to_signed_nbit_refines (z : Int) (n : Nat) :
    Refines (to_signed_nbit z n) (Release.to_signed_nbit z n) := by
  unfold to_signed_nbit Release.to_signed_nbit
  refine bind (chkI32_refines _) fun p hp => bind (chkI32_refines _) fun m _ => ?_
  refine bind ?_ fun k _ => bind (sarI32_refines _ _) fun s _ => ?_
  · unfold subNat Release.subNat
    split
    · have h2 : n < 32 := by
        unfold chkI32 at hp
        split at hp
        · rename_i h3
          have h4 : (2 : Nat) ^ n < 2 ^ 32 := by
            have h5 : ((2 ^ n : Nat) : Int) = (2 : Int) ^ n := by simp
            omega
          exact pow_fits h4
        · cases hp
      refine .inr ?_
      have : (n + 2 ^ 32 - 1) % 2 ^ 32 = n - 1 := by omega
      rw [this]
    · exact .panic
  · split
    · exact bind (chkI32_refines _) fun p _ => chkI32_refines _
    · exact rfl'

/-- Peels sequencing off a refinement goal, down to the arithmetic operations. -/
macro "refine_steps" : tactic => `(tactic| repeat first
  | with_reducible exact slice32_refines _ _ _
  | with_reducible exact slice16_refines _ _ _
  | with_reducible exact set32_refines _ _
  | with_reducible exact set16_refines _ _
  | with_reducible exact to_signed_nbit_refines _ _
  | with_reducible exact addU_refines _ _
  | with_reducible refine bind ?_ fun _ _ => ?_
  | exact rfl')

theorem parse_extension32_refines (w : BitVec 32) :
    Refines (U32.parse_extension w) (Release.U32.parse_extension w) := by
  unfold U32.parse_extension Release.U32.parse_extension
  refine_steps

theorem BaseI.opcode_refines (w : BitVec 32) (isa : Isa) :
    Refines (BaseI.parse_opcode w isa) (Release.BaseI.parse_opcode w isa) := by
  unfold BaseI.parse_opcode Release.BaseI.parse_opcode
  refine_steps

theorem BaseI.operand_refines (w : BitVec 32) (o : BaseIOpcode) :
    Refines (BaseI.parse_rd w o) (Release.BaseI.parse_rd w o) ∧
    Refines (BaseI.parse_rs1 w o) (Release.BaseI.parse_rs1 w o) ∧
    Refines (BaseI.parse_rs2 w o) (Release.BaseI.parse_rs2 w o) := by
  unfold BaseI.parse_rd Release.BaseI.parse_rd BaseI.parse_rs1 Release.BaseI.parse_rs1
    BaseI.parse_rs2 Release.BaseI.parse_rs2
  refine ⟨?_, ?_, ?_⟩ <;> refine_steps

theorem BaseI.imm_refines (w : BitVec 32) (o : BaseIOpcode) (isa : Isa) :
    Refines (BaseI.parse_imm w o isa) (Release.BaseI.parse_imm w o isa) := by
  cases o <;> cases isa <;> (dsimp only [BaseI.parse_imm, Release.BaseI.parse_imm]; refine_steps)

theorem M.opcode_refines (w : BitVec 32) (isa : Isa) :
    Refines (M.parse_opcode w isa) (Release.M.parse_opcode w isa) := by
  unfold M.parse_opcode Release.M.parse_opcode
  refine_steps

theorem M.operand_refines (w : BitVec 32) (o : MOpcode) :
    Refines (M.parse_rd w o) (Release.M.parse_rd w o) ∧
    Refines (M.parse_rs1 w o) (Release.M.parse_rs1 w o) ∧
    Refines (M.parse_rs2 w o) (Release.M.parse_rs2 w o) ∧
    Refines (M.parse_imm w o) (Release.M.parse_imm w o) := by
  unfold M.parse_rd Release.M.parse_rd M.parse_rs1 Release.M.parse_rs1
    M.parse_rs2 Release.M.parse_rs2 M.parse_imm Release.M.parse_imm
  refine ⟨?_, ?_, ?_, ?_⟩ <;> cases o <;> (try dsimp only) <;> refine_steps

theorem A.opcode_refines (w : BitVec 32) (isa : Isa) :
    Refines (A.parse_opcode w isa) (Release.A.parse_opcode w isa) := by
  unfold A.parse_opcode Release.A.parse_opcode
  refine_steps

theorem A.operand_refines (w : BitVec 32) (o : AOpcode) :
    Refines (A.parse_rd w o) (Release.A.parse_rd w o) ∧
    Refines (A.parse_rs1 w o) (Release.A.parse_rs1 w o) ∧
    Refines (A.parse_rs2 w o) (Release.A.parse_rs2 w o) ∧
    Refines (A.parse_imm w o) (Release.A.parse_imm w o) := by
  unfold A.parse_rd Release.A.parse_rd A.parse_rs1 Release.A.parse_rs1
    A.parse_rs2 Release.A.parse_rs2 A.parse_imm Release.A.parse_imm
  refine ⟨?_, ?_, ?_, ?_⟩ <;> cases o <;> (try dsimp only) <;> refine_steps

theorem Zifencei.opcode_refines (w : BitVec 32) :
    Refines (Zifencei.parse_opcode w) (Release.Zifencei.parse_opcode w) := by
  unfold Zifencei.parse_opcode Release.Zifencei.parse_opcode
  refine_steps

theorem Zifencei.operand_refines (w : BitVec 32) (o : ZifenceiOpcode) :
    Refines (Zifencei.parse_rd w o) (Release.Zifencei.parse_rd w o) ∧
    Refines (Zifencei.parse_rs1 w o) (Release.Zifencei.parse_rs1 w o) ∧
    Refines (Zifencei.parse_rs2 w o) (Release.Zifencei.parse_rs2 w o) ∧
    Refines (Zifencei.parse_imm w o) (Release.Zifencei.parse_imm w o) := by
  unfold Zifencei.parse_rd Release.Zifencei.parse_rd Zifencei.parse_rs1 Release.Zifencei.parse_rs1
    Zifencei.parse_rs2 Release.Zifencei.parse_rs2 Zifencei.parse_imm Release.Zifencei.parse_imm
  refine ⟨?_, ?_, ?_, ?_⟩ <;> cases o <;> (try dsimp only) <;> refine_steps

theorem Zicboz.opcode_refines (w : BitVec 32) :
    Refines (Zicboz.parse_opcode w) (Release.Zicboz.parse_opcode w) := by
  unfold Zicboz.parse_opcode Release.Zicboz.parse_opcode
  refine_steps

theorem Zicboz.operand_refines (w : BitVec 32) (o : ZicbozOpcode) :
    Refines (Zicboz.parse_rd w o) (Release.Zicboz.parse_rd w o) ∧
    Refines (Zicboz.parse_rs1 w o) (Release.Zicboz.parse_rs1 w o) ∧
    Refines (Zicboz.parse_rs2 w o) (Release.Zicboz.parse_rs2 w o) ∧
    Refines (Zicboz.parse_imm w o) (Release.Zicboz.parse_imm w o) := by
  unfold Zicboz.parse_rd Release.Zicboz.parse_rd Zicboz.parse_rs1 Release.Zicboz.parse_rs1
    Zicboz.parse_rs2 Release.Zicboz.parse_rs2 Zicboz.parse_imm Release.Zicboz.parse_imm
  refine ⟨?_, ?_, ?_, ?_⟩ <;> cases o <;> (try dsimp only) <;> refine_steps

theorem Zicsr.opcode_refines (w : BitVec 32) :
    Refines (Zicsr.parse_opcode w) (Release.Zicsr.parse_opcode w) := by
  unfold Zicsr.parse_opcode Release.Zicsr.parse_opcode
  refine_steps

theorem Zicsr.operand_refines (w : BitVec 32) (o : ZicsrOpcode) :
    Refines (Zicsr.parse_rd w o) (Release.Zicsr.parse_rd w o) ∧
    Refines (Zicsr.parse_rs1 w o) (Release.Zicsr.parse_rs1 w o) ∧
    Refines (Zicsr.parse_rs2 w o) (Release.Zicsr.parse_rs2 w o) ∧
    Refines (Zicsr.parse_imm w o) (Release.Zicsr.parse_imm w o) := by
  unfold Zicsr.parse_rd Release.Zicsr.parse_rd Zicsr.parse_rs1 Release.Zicsr.parse_rs1
    Zicsr.parse_rs2 Release.Zicsr.parse_rs2 Zicsr.parse_imm Release.Zicsr.parse_imm
  refine ⟨?_, ?_, ?_, ?_⟩ <;> cases o <;> (try dsimp only) <;> refine_steps

theorem Zicfiss.opcode_refines (w : BitVec 32) :
    Refines (Zicfiss.parse_opcode w) (Release.Zicfiss.parse_opcode w) := by
  unfold Zicfiss.parse_opcode Release.Zicfiss.parse_opcode
  refine_steps

theorem Zicfiss.operand_refines (w : BitVec 32) (o : ZicfissOpcode) :
    Refines (Zicfiss.parse_rd w o) (Release.Zicfiss.parse_rd w o) ∧
    Refines (Zicfiss.parse_rs1 w o) (Release.Zicfiss.parse_rs1 w o) ∧
    Refines (Zicfiss.parse_rs2 w o) (Release.Zicfiss.parse_rs2 w o) ∧
    Refines (Zicfiss.parse_imm w o) (Release.Zicfiss.parse_imm w o) := by
  unfold Zicfiss.parse_rd Release.Zicfiss.parse_rd Zicfiss.parse_rs1 Release.Zicfiss.parse_rs1
    Zicfiss.parse_rs2 Release.Zicfiss.parse_rs2 Zicfiss.parse_imm Release.Zicfiss.parse_imm
  refine ⟨?_, ?_, ?_, ?_⟩ <;> cases o <;> (try dsimp only) <;> refine_steps

theorem Zicntr.opcode_refines (w : BitVec 32) :
    Refines (Zicntr.parse_opcode w) (Release.Zicntr.parse_opcode w) := by
  unfold Zicntr.parse_opcode Release.Zicntr.parse_opcode
  refine_steps

theorem Zicntr.operand_refines (w : BitVec 32) (o : ZicntrOpcode) :
    Refines (Zicntr.parse_rd w o) (Release.Zicntr.parse_rd w o) ∧
    Refines (Zicntr.parse_rs1 w o) (Release.Zicntr.parse_rs1 w o) ∧
    Refines (Zicntr.parse_rs2 w o) (Release.Zicntr.parse_rs2 w o) ∧
    Refines (Zicntr.parse_imm w o) (Release.Zicntr.parse_imm w o) := by
  unfold Zicntr.parse_rd Release.Zicntr.parse_rd Zicntr.parse_rs1 Release.Zicntr.parse_rs1
    Zicntr.parse_rs2 Release.Zicntr.parse_rs2 Zicntr.parse_imm Release.Zicntr.parse_imm
  refine ⟨?_, ?_, ?_, ?_⟩ <;> cases o <;> (try dsimp only) <;> refine_steps

theorem Priv.opcode_refines (w : BitVec 32) :
    Refines (Priv.parse_opcode w) (Release.Priv.parse_opcode w) := by
  unfold Priv.parse_opcode Release.Priv.parse_opcode
  refine_steps

theorem Priv.operand_refines (w : BitVec 32) (o : PrivOpcode) :
    Refines (Priv.parse_rd w o) (Release.Priv.parse_rd w o) ∧
    Refines (Priv.parse_rs1 w o) (Release.Priv.parse_rs1 w o) ∧
    Refines (Priv.parse_rs2 w o) (Release.Priv.parse_rs2 w o) ∧
    Refines (Priv.parse_imm w o) (Release.Priv.parse_imm w o) := by
  unfold Priv.parse_rd Release.Priv.parse_rd Priv.parse_rs1 Release.Priv.parse_rs1
    Priv.parse_rs2 Release.Priv.parse_rs2 Priv.parse_imm Release.Priv.parse_imm
  refine ⟨?_, ?_, ?_, ?_⟩ <;> cases o <;> (try dsimp only) <;> refine_steps

theorem C.opcode_refines (w : BitVec 16) (isa : Isa) :
    Refines (C.parse_opcode w isa) (Release.C.parse_opcode w isa) := by
  unfold C.parse_opcode Release.C.parse_opcode
  refine bind (slice16_refines _ _ _) fun _ _ => bind rfl' fun m _ => ?_
  refine bind (slice16_refines _ _ _) fun _ _ => bind rfl' fun q _ => ?_
  split
  · exact rfl'
  · have h1 : Refines (C.quadrant1 w m isa) (Release.C.quadrant1 w m isa) := by
      unfold C.quadrant1 Release.C.quadrant1
      refine_steps
    have h2 : Refines (C.quadrant2 w m isa) (Release.C.quadrant2 w m isa) := by
      unfold C.quadrant2 Release.C.quadrant2
      refine_steps
    have h0 : C.quadrant0 w m isa = Release.C.quadrant0 w m isa := rfl
    match q with
    | 0 => exact .inr h0.symm
    | 1 => exact h1
    | 2 => exact h2
    | _ + 3 => exact rfl'

theorem C.operand_refines (w : BitVec 16) (o : COpcode) :
    Refines (C.parse_rd w o) (Release.C.parse_rd w o) ∧
    Refines (C.parse_rs1 w o) (Release.C.parse_rs1 w o) ∧
    Refines (C.parse_rs2 w o) (Release.C.parse_rs2 w o) := by
  unfold C.parse_rd Release.C.parse_rd C.parse_rs1 Release.C.parse_rs1
    C.parse_rs2 Release.C.parse_rs2
  refine ⟨?_, ?_, ?_⟩ <;> refine_steps

theorem C.imm_refines (w : BitVec 16) (o : COpcode) :
    Refines (C.parse_imm w o) (Release.C.parse_imm w o) := by
  cases o <;> (dsimp only [C.parse_imm, Release.C.parse_imm]; refine_steps)

/-! ## Whole decoders -/

theorem opcode32_refines (w : BitVec 32) (isa : Isa) :
    Refines (U32.parse_opcode w isa) (Release.U32.parse_opcode w isa) := by
  unfold U32.parse_opcode Release.U32.parse_opcode
  rcases parse_extension32_refines w with h | h
  · rw [h]; exact .panic
  · rw [h]
    cases U32.parse_extension w with
    | ok e =>
      cases e
      · exact bind (BaseI.opcode_refines w isa) fun _ _ => rfl'
      · exact bind (M.opcode_refines w isa) fun _ _ => rfl'
      · exact bind (A.opcode_refines w isa) fun _ _ => rfl'
      · exact rfl'
      · exact bind (Zifencei.opcode_refines w) fun _ _ => rfl'
      · exact bind (Zicboz.opcode_refines w) fun _ _ => rfl'
      · exact bind (Zicsr.opcode_refines w) fun _ _ => rfl'
      · exact bind (Zicfiss.opcode_refines w) fun _ _ => rfl'
      · exact bind (Zicntr.opcode_refines w) fun _ _ => rfl'
      · exact bind (Priv.opcode_refines w) fun _ _ => rfl'
    | err e => exact rfl'
    | panic => exact rfl'

theorem operand32_refines (w : BitVec 32) (op : OpcodeKind) (isa : Isa) :
    Refines (U32.parse_rd w op) (Release.U32.parse_rd w op) ∧
    Refines (U32.parse_rs1 w op) (Release.U32.parse_rs1 w op) ∧
    Refines (U32.parse_rs2 w op) (Release.U32.parse_rs2 w op) ∧
    Refines (U32.parse_imm w op isa) (Release.U32.parse_imm w op isa) := by
  rcases op with o | o | o | o | o | o | o | o | o | o
  · have h := BaseI.operand_refines w o
    exact ⟨h.1, h.2.1, h.2.2, BaseI.imm_refines w o isa⟩
  · exact M.operand_refines w o
  · exact A.operand_refines w o
  · exact ⟨rfl', rfl', rfl', rfl'⟩
  · exact Zifencei.operand_refines w o
  · exact Zicboz.operand_refines w o
  · exact Zicsr.operand_refines w o
  · exact Zicfiss.operand_refines w o
  · exact Zicntr.operand_refines w o
  · exact Priv.operand_refines w o

theorem decode32_refines (w : BitVec 32) (isa : Isa) :
    Refines (U32.decode w isa) (Release.U32.decode w isa) := by
  unfold U32.decode Release.U32.decode
  refine bind (opcode32_refines w isa) fun op _ => ?_
  obtain ⟨h1, h2, h3, h4⟩ := operand32_refines w op isa
  exact bind h1 fun _ _ => bind h2 fun _ _ => bind h3 fun _ _ => bind h4 fun _ _ => rfl'

theorem opcode16_refines (w : BitVec 16) (isa : Isa) :
    Refines (U16.parse_opcode w isa) (Release.U16.parse_opcode w isa) := by
  unfold U16.parse_opcode Release.U16.parse_opcode
  have h : Release.U16.parse_extension w = U16.parse_extension w := rfl
  rw [h]
  cases U16.parse_extension w with
  | ok e =>
    cases e
    case C => exact bind (C.opcode_refines w isa) fun _ _ => rfl'
    all_goals exact rfl'
  | err e => exact rfl'
  | panic => exact rfl'

theorem operand16_refines (w : BitVec 16) (op : OpcodeKind) (isa : Isa) :
    Refines (U16.parse_rd w op) (Release.U16.parse_rd w op) ∧
    Refines (U16.parse_rs1 w op) (Release.U16.parse_rs1 w op) ∧
    Refines (U16.parse_rs2 w op) (Release.U16.parse_rs2 w op) ∧
    Refines (U16.parse_imm w op isa) (Release.U16.parse_imm w op isa) := by
  rcases op with o | o | o | o | o | o | o | o | o | o
  case C =>
    have h := C.operand_refines w o
    exact ⟨h.1, h.2.1, h.2.2, C.imm_refines w o⟩
  all_goals exact ⟨rfl', rfl', rfl', rfl'⟩

theorem decode16_refines (w : BitVec 16) (isa : Isa) :
    Refines (U16.decode w isa) (Release.U16.decode w isa) := by
  unfold U16.decode Release.U16.decode
  split
  · exact rfl'
  refine bind (opcode16_refines w isa) fun op _ => ?_
  obtain ⟨h1, h2, h3, h4⟩ := operand16_refines w op isa
  exact bind h1 fun _ _ => bind h2 fun _ _ => bind h3 fun _ _ => bind h4 fun _ _ => rfl'

theorem try_from_refines (n : Nat) : Refines (try_from n) (Release.try_from n) := by
  unfold try_from Release.try_from
  split
  · exact bind rfl' fun _ _ => decode32_refines _ _
  · exact bind rfl' fun _ _ => decode16_refines _ _

end Raki
