import Verif.Lemmas.Asm32
import Verif.Lemmas.Asm16
import Verif.Lemmas.Listing
/-!
# Assembling by the listings
-/

namespace Raki

open Spec

set_option linter.unusedSimpArgs false

/-- Low fields of the two's complement do not depend on its width. -/
theorem fld_ofI (n hi lo : Nat) (z : Int) (hn : n ≤ 32) (hi' : hi < n) :
    fld (ofI 32 z) hi lo = fld (ofI n z) hi lo := by
  have h : ofI n z = ofI 32 z % 2 ^ n := by
    obtain ⟨k, hk⟩ : ∃ k, 32 = n + k := ⟨32 - n, by omega⟩
    unfold ofI
    have hd : (2 : Int) ^ n ∣ 2 ^ 32 := by rw [hk, Int.pow_add]; exact Int.dvd_mul_right _ _
    have h1 : z % 2 ^ n = z % 2 ^ 32 % 2 ^ n := (Int.emod_emod_of_dvd z hd).symm
    have h0 : 0 ≤ z % 2 ^ 32 := Int.emod_nonneg _ (by decide)
    rw [h1]
    generalize z % 2 ^ 32 = y at *
    obtain ⟨m, rfl⟩ := Int.eq_ofNat_of_zero_le h0
    simp -implicitDefEqProofs only [Int.toNat_natCast]
    have : ((m : Int) % 2 ^ n) = ((m % 2 ^ n : Nat) : Int) := by simp
    rw [this, Int.toNat_natCast]
  rw [h]
  simp -implicitDefEqProofs only [fld]
  by_cases hlo : hi < lo
  · rw [show hi + 1 - lo = 0 by omega]; simp -implicitDefEqProofs [Nat.mod_one]
  · obtain ⟨k, rfl⟩ : ∃ k, n = lo + k := ⟨n - lo, by omega⟩
    rw [Nat.pow_add, Nat.mod_mul_right_div_self, Nat.mod_mod_of_dvd]
    exact Nat.pow_dvd_pow 2 (by omega)

/-- A narrow two's complement is a field of the wide one. -/
theorem ofI_fld (n : Nat) (z : Int) (hn : n + 1 ≤ 32) : ofI (n + 1) z = fld (ofI 32 z) n 0 := by
  rw [fld_ofI (n + 1) n 0 z hn (by omega)]
  simp -implicitDefEqProofs only [fld, Nat.pow_zero, Nat.div_one, Nat.sub_zero]
  rw [Nat.mod_eq_of_lt (ofI_lt _ _)]

theorem ofI_fld2 (z : Int) : ofI 2 z = fld (ofI 32 z) 1 0 := ofI_fld 1 z (by decide)
theorem ofI_fld5 (z : Int) : ofI 5 z = fld (ofI 32 z) 4 0 := ofI_fld 4 z (by decide)
theorem ofI_fld6 (z : Int) : ofI 6 z = fld (ofI 32 z) 5 0 := ofI_fld 5 z (by decide)
theorem ofI_fld12 (z : Int) : ofI 12 z = fld (ofI 32 z) 11 0 := ofI_fld 11 z (by decide)
theorem ofI_fld20 (z : Int) : ofI 20 z = fld (ofI 32 z) 19 0 := ofI_fld 19 z (by decide)
theorem fld_ofI6 (hi lo : Nat) (z : Int) (h : hi < 6) : fld (ofI 6 z) hi lo = fld (ofI 32 z) hi lo :=
  (fld_ofI 6 hi lo z (by decide) h).symm
theorem fld_ofI7 (hi lo : Nat) (z : Int) (h : hi < 7) : fld (ofI 7 z) hi lo = fld (ofI 32 z) hi lo :=
  (fld_ofI 7 hi lo z (by decide) h).symm
theorem fld_ofI8 (hi lo : Nat) (z : Int) (h : hi < 8) : fld (ofI 8 z) hi lo = fld (ofI 32 z) hi lo :=
  (fld_ofI 8 hi lo z (by decide) h).symm
theorem fld_ofI9 (hi lo : Nat) (z : Int) (h : hi < 9) : fld (ofI 9 z) hi lo = fld (ofI 32 z) hi lo :=
  (fld_ofI 9 hi lo z (by decide) h).symm
theorem fld_ofI10 (hi lo : Nat) (z : Int) (h : hi < 10) : fld (ofI 10 z) hi lo = fld (ofI 32 z) hi lo :=
  (fld_ofI 10 hi lo z (by decide) h).symm
theorem fld_ofI12 (hi lo : Nat) (z : Int) (h : hi < 12) : fld (ofI 12 z) hi lo = fld (ofI 32 z) hi lo :=
  (fld_ofI 12 hi lo z (by decide) h).symm
theorem fld_ofI13 (hi lo : Nat) (z : Int) (h : hi < 13) : fld (ofI 13 z) hi lo = fld (ofI 32 z) hi lo :=
  (fld_ofI 13 hi lo z (by decide) h).symm
theorem fld_ofI18 (hi lo : Nat) (z : Int) (h : hi < 18) : fld (ofI 18 z) hi lo = fld (ofI 32 z) hi lo :=
  (fld_ofI 18 hi lo z (by decide) h).symm
theorem fld_ofI21 (hi lo : Nat) (z : Int) (h : hi < 21) : fld (ofI 21 z) hi lo = fld (ofI 32 z) hi lo :=
  (fld_ofI 21 hi lo z (by decide) h).symm

/-- A small shift amount has no sixth bit. -/
theorem shamt_fld (z : Int) (h : 0 ≤ z ∧ z < 32) : fld (ofI 32 z) 5 0 = fld (ofI 32 z) 4 0 := by
  simp -implicitDefEqProofs only [fld, ofI]; omega

/-- Assembling by the row of the listings gives the word of the assembler. -/
theorem assemble_asm32 (isa : Isa) (i : Instruction) (l : Listed) (h : WF32 isa i)
    (hl : listing32 isa i.opc = some l) : l.assemble 32 i = asm32 i := by
  obtain ⟨-, -, -, r, hr, -, ho⟩ := h
  obtain ⟨op, rd, rs1, rs2, imm, fmt, c⟩ := i
  simp only at hr ho hl
  rcases op with o | o | o | o | o | o | o | o | o | o
  all_goals cases o
  all_goals cases isa
  all_goals simp -implicitDefEqProofs only [listing32, on, row32, Option.some.injEq, reduceCtorEq] at hl hr
  all_goals subst hl hr
  all_goals simp -implicitDefEqProofs only [Listed.assemble, fillIn, Piece.fill, Piece.width, asm32, row32, encode32, word, wordI]
  all_goals first
    | (obtain ⟨h1, h2, -, -⟩ := ho; simp only at h1 h2; subst h1 h2; simp -implicitDefEqProofs; omega)
    | (obtain ⟨h1, -, -, -⟩ := ho; simp only at h1; subst h1; simp -implicitDefEqProofs; omega)
    | (obtain ⟨-, -, -, z, h4, h5⟩ := ho
       simp only at h4; subst h4
       have h6 := shamt_fld z h5
       simp -implicitDefEqProofs only [Option.getD_some]
       generalize rd.getD 0 = a
       generalize rs1.getD 0 = b
       rw [ofI_fld6, h6]
       simp -implicitDefEqProofs
       omega)
    | (generalize rd.getD 0 = a
       generalize rs1.getD 0 = b
       generalize rs2.getD 0 = d
       generalize imm.getD 0 = z
       simp -implicitDefEqProofs [fld_ofI12, fld_ofI13, fld_ofI21]
       try simp -implicitDefEqProofs only [ofI_fld2, ofI_fld5, ofI_fld6, ofI_fld12, ofI_fld20]
       omega)

/-- The same for compressed instructions. -/
theorem assemble_asm16 (isa : Isa) (i : Instruction) (l : Listed) (h : WF16 isa i)
    (hl : listing16 isa i.opc = some l) : l.assemble 16 i = asm16 i := by
  obtain ⟨-, -, -, ho⟩ := h
  obtain ⟨op, rd, rs1, rs2, imm, fmt, c⟩ := i
  simp only at ho hl
  rcases op with o | o | o | o | o | o | o | o | o | o
  all_goals cases o
  all_goals cases isa
  all_goals simp -implicitDefEqProofs only [listing16, on, Option.some.injEq, reduceCtorEq] at hl
  all_goals subst hl
  all_goals simp -implicitDefEqProofs only [Listed.assemble, fillIn, Piece.fill, Piece.width, asm16, encode16, half, midCI, midCL,
    midCJ, midCB]
  all_goals first
    | (generalize rd.getD 0 - 8 = a
       generalize rd.getD 0 = a'
       generalize rs1.getD 0 - 8 = b
       generalize rs1.getD 0 = b'
       generalize rs2.getD 0 - 8 = d
       generalize rs2.getD 0 = d'
       generalize imm.getD 0 = z
       simp -implicitDefEqProofs [fld_ofI6, fld_ofI7, fld_ofI8, fld_ofI9, fld_ofI10, fld_ofI12, fld_ofI18]
       omega)
    | (obtain ⟨h1, -⟩ := ho
       simp only at h1; subst h1
       simp -implicitDefEqProofs [fld_ofI10]
       done)
    | (obtain ⟨h1, -⟩ := ho
       simp only at h1; subst h1
       simp -implicitDefEqProofs [fld_ofI10]
       omega)
    | (obtain ⟨-, -, h3, -⟩ := ho
       simp only at h3; subst h3
       simp -implicitDefEqProofs
       omega)
    | (obtain ⟨-, -, -, z, h4, h5⟩ := ho
       simp only at h4; subst h4
       have h6 : fld (ofI 32 z) 5 5 = 0 := by
         have h7 := h5.1.1
         have h8 := h5.2 rfl
         simp -implicitDefEqProofs only [fld, ofI]; omega
       simp -implicitDefEqProofs [fld_ofI6, h6]
       omega)

end Raki
