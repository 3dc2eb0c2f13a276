import Verif.Lemmas.Asm32
import Verif.Lemmas.Decode16
import Verif.Lemmas.Pieces
/-!
# The assembler is inverse to the reading of the fields (16-bit)
-/

namespace Raki

open Spec

set_option linter.unusedSimpArgs false

theorem half_fields {q f3 b12 r b62 h : Nat} (hh : h = half q f3 (midCI b12 r b62))
    (hq : q < 4) (hf : f3 < 8) (h12 : b12 < 2) (hr : r < 32) (h62 : b62 < 32) :
    h < 2 ^ 16 ∧ fld h 1 0 = q ∧ fld h 15 13 = f3 ∧ fld h 12 12 = b12 ∧ fld h 11 7 = r ∧
      fld h 6 2 = b62 := by
  simp only [half, midCI] at hh
  simp only [fld]
  refine ⟨?_, ?_, ?_, ?_, ?_, ?_⟩ <;> omega

theorem half_of_fields (h : Nat) (hh : h < 2 ^ 16) :
    h = half (fld h 1 0) (fld h 15 13) (midCI (fld h 12 12) (fld h 11 7) (fld h 6 2)) := by
  simp only [half, midCI, fld]
  omega

theorem midCL_eq (a b c d : Nat) : midCL a b c d = midCI (a / 4) (a % 4 * 8 + b) (c * 8 + d) := by
  simp only [midCL, midCI]; omega

/-- The other fields in use, in terms of the five above. -/
theorem fld_derived16 (h : Nat) :
    fld h 11 10 = fld h 11 7 / 8 ∧ fld h 9 7 = fld h 11 7 % 8 ∧ fld h 6 5 = fld h 6 2 / 8 ∧
    fld h 4 2 = fld h 6 2 % 8 ∧ fld h 6 6 = fld h 6 2 / 16 ∧ fld h 5 5 = fld h 6 2 / 8 % 2 ∧
    fld h 4 3 = fld h 6 2 / 2 % 4 ∧ fld h 2 2 = fld h 6 2 % 2 ∧ fld h 6 4 = fld h 6 2 / 4 ∧
    fld h 3 2 = fld h 6 2 % 4 ∧ fld h 11 11 = fld h 11 7 / 16 ∧ fld h 10 9 = fld h 11 7 / 4 % 4 ∧
    fld h 8 8 = fld h 11 7 / 2 % 2 ∧ fld h 7 7 = fld h 11 7 % 2 ∧ fld h 5 3 = fld h 6 2 / 2 % 8 ∧
    fld h 12 9 = fld h 12 12 * 8 + fld h 11 7 / 4 ∧ fld h 8 7 = fld h 11 7 % 4 ∧
    fld h 12 10 = fld h 12 12 * 4 + fld h 11 7 / 8 ∧ fld h 12 11 = fld h 12 12 * 2 + fld h 11 7 / 16 ∧
    fld h 10 7 = fld h 11 7 % 16 ∧
    fld h 12 5 = fld h 12 12 * 128 + fld h 11 7 * 4 + fld h 6 2 / 8 := by
  simp only [fld]
  refine ⟨?_, ?_, ?_, ?_, ?_, ?_, ?_, ?_, ?_, ?_, ?_, ?_, ?_, ?_, ?_, ?_, ?_, ?_, ?_, ?_, ?_⟩ <;> omega

theorem bounds16 (h : Nat) : fld h 1 0 < 4 ∧ fld h 15 13 < 8 ∧ fld h 12 12 < 2 ∧ fld h 11 7 < 32 ∧
    fld h 6 2 < 32 :=
  ⟨fld_lt h 1 0, fld_lt h 15 13, fld_lt h 12 12, fld_lt h 11 7, fld_lt h 6 2⟩

/-! ## Each scattered immediate, from the halfword to the number and back

`join*`: if the halfword holds the pieces of `u`, the manual's formula gives `u`. -/

theorem joinCI {h u : Nat} (hu : u < 2 ^ 6) (e1 : fld h 12 12 = fld u 5 5) (e2 : fld h 6 2 = fld u 4 0) :
    uimmCI h = u := by
  rw [uimmCI, e1, e2]; exact (piecesCI u hu).symm

theorem joinCIW {h u r : Nat} (hu : u < 2 ^ 10) (hz : u % 4 = 0) (hr : r < 8)
    (e1 : fld h 12 12 = fld u 5 4 / 2)
    (e2 : fld h 11 7 = fld u 5 4 % 2 * 16 + fld u 9 6)
    (e3 : fld h 6 2 = fld u 2 2 * 16 + fld u 3 3 * 8 + r) : uimmCIW h = u := by
  obtain ⟨-, -, -, -, d66, d55, -, -, -, -, -, -, -, -, -, -, -, -, d1211, d107, -⟩ := fld_derived16 h
  have q1 := fld_lt u 5 4
  have q2 := fld_lt u 9 6
  have q3 := fld_lt u 2 2
  have q4 := fld_lt u 3 3
  rw [uimmCIW, show fld h 12 11 = fld u 5 4 by omega, show fld h 10 7 = fld u 9 6 by omega,
    show fld h 6 6 = fld u 2 2 by omega, show fld h 5 5 = fld u 3 3 by omega]
  exact (piecesCIW u hu hz).symm

theorem joinW {h u r1 r2 : Nat} (hu : u < 2 ^ 7) (hz : u % 4 = 0) (hr1 : r1 < 8) (hr2 : r2 < 8)
    (e1 : fld h 12 12 = fld u 5 3 / 4) (e2 : fld h 11 7 = fld u 5 3 % 4 * 8 + r1)
    (e3 : fld h 6 2 = (fld u 2 2 * 2 + fld u 6 6) * 8 + r2) : uimmW h = u := by
  obtain ⟨-, -, -, -, d66, d55, -, -, -, -, -, -, -, -, -, -, -, d1210, -⟩ := fld_derived16 h
  have q1 := fld_lt u 5 3
  have q2 := fld_lt u 2 2
  have q3 := fld_lt u 6 6
  rw [uimmW, show fld h 12 10 = fld u 5 3 by omega, show fld h 6 6 = fld u 2 2 by omega,
    show fld h 5 5 = fld u 6 6 by omega]
  exact (piecesW u hu hz).symm

theorem joinD {h u r1 r2 : Nat} (hu : u < 2 ^ 8) (hz : u % 8 = 0) (hr1 : r1 < 8) (hr2 : r2 < 8)
    (e1 : fld h 12 12 = fld u 5 3 / 4) (e2 : fld h 11 7 = fld u 5 3 % 4 * 8 + r1)
    (e3 : fld h 6 2 = fld u 7 6 * 8 + r2) : uimmD h = u := by
  obtain ⟨-, -, d65, -, -, -, -, -, -, -, -, -, -, -, -, -, -, d1210, -⟩ := fld_derived16 h
  have q1 := fld_lt u 5 3
  have q2 := fld_lt u 7 6
  rw [uimmD, show fld h 12 10 = fld u 5 3 by omega, show fld h 6 5 = fld u 7 6 by omega]
  exact (piecesD u hu hz).symm

theorem midCJ_eq (u : Nat) : midCJ u = midCI (fld u 11 11)
    (fld u 4 4 * 16 + fld u 9 8 * 4 + fld u 10 10 * 2 + fld u 6 6)
    (fld u 7 7 * 16 + fld u 3 1 * 2 + fld u 5 5) := by
  simp only [midCJ, midCI]; omega

theorem joinCJ {h u : Nat} (hu : u < 2 ^ 12) (hz : u % 2 = 0)
    (e1 : fld h 12 12 = fld u 11 11)
    (e2 : fld h 11 7 = fld u 4 4 * 16 + fld u 9 8 * 4 + fld u 10 10 * 2 + fld u 6 6)
    (e3 : fld h 6 2 = fld u 7 7 * 16 + fld u 3 1 * 2 + fld u 5 5) : immCJ h = sext 12 u := by
  obtain ⟨-, -, -, -, d66, -, -, d22, -, -, d1111, d109, d88, d77, d53, -⟩ := fld_derived16 h
  have q1 := fld_lt u 4 4
  have q2 := fld_lt u 9 8
  have q3 := fld_lt u 10 10
  have q4 := fld_lt u 6 6
  have q5 := fld_lt u 7 7
  have q6 := fld_lt u 3 1
  have q7 := fld_lt u 5 5
  rw [immCJ, e1, show fld h 11 11 = fld u 4 4 by omega, show fld h 10 9 = fld u 9 8 by omega,
    show fld h 8 8 = fld u 10 10 by omega, show fld h 7 7 = fld u 6 6 by omega,
    show fld h 6 6 = fld u 7 7 by omega, show fld h 5 3 = fld u 3 1 by omega,
    show fld h 2 2 = fld u 5 5 by omega]
  exact congrArg (sext 12) (piecesCJ u hu hz).symm

theorem joinCB {h u r : Nat} (hu : u < 2 ^ 9) (hz : u % 2 = 0) (hr : r < 8)
    (e1 : fld h 12 12 = (fld u 8 8 * 2 ^ 2 + fld u 4 3) / 4)
    (e2 : fld h 11 7 = (fld u 8 8 * 2 ^ 2 + fld u 4 3) % 4 * 8 + r)
    (e3 : fld h 6 2 = fld u 7 6 * 8 + (fld u 2 1 * 2 + fld u 5 5)) : immCB h = sext 9 u := by
  obtain ⟨d1110, -, d65, -, -, -, d43, d22, -⟩ := fld_derived16 h
  have q1 := fld_lt u 8 8
  have q2 := fld_lt u 4 3
  have q3 := fld_lt u 7 6
  have q4 := fld_lt u 2 1
  have q5 := fld_lt u 5 5
  rw [immCB, show fld h 12 12 = fld u 8 8 by omega, show fld h 11 10 = fld u 4 3 by omega,
    show fld h 6 5 = fld u 7 6 by omega, show fld h 4 3 = fld u 2 1 by omega,
    show fld h 2 2 = fld u 5 5 by omega]
  exact congrArg (sext 9) (piecesCB u hu hz).symm

theorem joinSP {h u : Nat} (hu : u < 2 ^ 10) (hz : u % 16 = 0)
    (e1 : fld h 12 12 = fld u 9 9)
    (e3 : fld h 6 2 = fld u 4 4 * 2 ^ 4 + fld u 6 6 * 2 ^ 3 + fld u 8 7 * 2 + fld u 5 5) :
    imm16sp h = sext 10 u := by
  obtain ⟨-, -, -, -, d66, d55, d43, d22, -⟩ := fld_derived16 h
  have q2 := fld_lt u 4 4
  have q3 := fld_lt u 6 6
  have q4 := fld_lt u 8 7
  have q5 := fld_lt u 5 5
  rw [imm16sp, e1, show fld h 6 6 = fld u 4 4 by omega, show fld h 5 5 = fld u 6 6 by omega,
    show fld h 4 3 = fld u 8 7 by omega, show fld h 2 2 = fld u 5 5 by omega]
  exact congrArg (sext 10) (piecesSP u hu hz).symm

theorem joinLUI {h u : Nat} (hu : u < 2 ^ 18) (hz : u % 4096 = 0)
    (e1 : fld h 12 12 = fld u 17 17) (e3 : fld h 6 2 = fld u 16 12) : immCLui h = sext 18 u := by
  rw [immCLui, e1, e3]
  exact congrArg (sext 18) (piecesLUI u hu hz).symm

theorem joinLWSP {h u : Nat} (hu : u < 2 ^ 8) (hz : u % 4 = 0) (e1 : fld h 12 12 = fld u 5 5)
    (e3 : fld h 6 2 = fld u 4 2 * 2 ^ 2 + fld u 7 6) : uimmLwsp h = u := by
  obtain ⟨-, -, -, -, -, -, -, -, d64, d32, -⟩ := fld_derived16 h
  have q1 := fld_lt u 4 2
  have q2 := fld_lt u 7 6
  rw [uimmLwsp, e1, show fld h 6 4 = fld u 4 2 by omega, show fld h 3 2 = fld u 7 6 by omega]
  exact (piecesLWSP u hu hz).symm

theorem joinLDSP {h u : Nat} (hu : u < 2 ^ 9) (hz : u % 8 = 0) (e1 : fld h 12 12 = fld u 5 5)
    (e3 : fld h 6 2 = fld u 4 3 * 2 ^ 3 + fld u 8 6) : uimmLdsp h = u := by
  obtain ⟨-, -, d65, d42, -⟩ := fld_derived16 h
  have q1 := fld_lt u 4 3
  have q2 := fld_lt u 8 6
  rw [uimmLdsp, e1, show fld h 6 5 = fld u 4 3 by omega, show fld h 4 2 = fld u 8 6 by omega]
  exact (piecesLDSP u hu hz).symm

theorem joinSWSP {h u : Nat} (hu : u < 2 ^ 8) (hz : u % 4 = 0) (e1 : fld h 12 12 = fld u 5 2 / 8)
    (e2 : fld h 11 7 = fld u 5 2 % 8 * 4 + fld u 7 6) : uimmSwsp h = u := by
  obtain ⟨-, -, -, -, -, -, -, -, -, -, -, -, -, -, -, d129, d87, -⟩ := fld_derived16 h
  have q1 := fld_lt u 5 2
  have q2 := fld_lt u 7 6
  rw [uimmSwsp, show fld h 12 9 = fld u 5 2 by omega, show fld h 8 7 = fld u 7 6 by omega]
  exact (piecesSWSP u hu hz).symm

theorem joinSDSP {h u : Nat} (hu : u < 2 ^ 9) (hz : u % 8 = 0) (e1 : fld h 12 12 = fld u 5 3 / 4)
    (e2 : fld h 11 7 = fld u 5 3 % 4 * 8 + fld u 8 6) : uimmSdsp h = u := by
  obtain ⟨-, d97, -, -, -, -, -, -, -, -, -, -, -, -, -, -, -, d1210, -⟩ := fld_derived16 h
  have q1 := fld_lt u 5 3
  have q2 := fld_lt u 8 6
  rw [uimmSdsp, show fld h 12 10 = fld u 5 3 by omega, show fld h 9 7 = fld u 8 6 by omega]
  exact (piecesSDSP u hu hz).symm

/-! ## Assembling, then reading -/

/-- From the five fields of a halfword, the fixed bits and the registers. -/
syntax "from_half " ident term : tactic
macro_rules
  | `(tactic| from_half $h $t) => `(tactic| (
      obtain ⟨hlt, e10, e1513, e1212, e117, e62⟩ := $t
      obtain ⟨d1, d2, d3, d4, d5, d6, d7, d8, d9, d10, d11, d12, d13, d14, d15, d16, d17, d18, d19, d20,
        d21⟩ := fld_derived16 $h
      simp only [e10, e1513, e1212, e117, e62] at d1 d2 d3 d4 d21
      simp only [official16, quad, rd16, rs116, rs216, imm16, regC, Option.some.injEq, e10, e1513,
        e1212, e117, e62, d1, d2, d3, d4, d21, hlt, true_and, and_true]))

set_option maxHeartbeats 2000000 in
/-- The assembled halfword is an encoding of the opcode and has the given operands. -/
theorem encode16_spec (isa : Isa) (i : Instruction) (he : existsIn16 isa i.opc)
    (ho : operands16 isa i) (h : Nat) (hw : h = asm16 i) :
    h < 2 ^ 16 ∧ official16 isa h i.opc ∧ rd16 h i.opc = i.rd ∧ rs116 h i.opc = i.rs1 ∧
      rs216 h i.opc = i.rs2 ∧ imm16 h i.opc = i.imm := by
  obtain ⟨opc, rd, rs1, rs2, imm, ifmt, ic⟩ := i
  simp only [asm16] at ho hw he ⊢
  rcases opc with o | o | o | o | o | o | o | o | o | o
  case C =>
    cases o
    all_goals simp only [operands16, existsIn16] at ho he
    case ADDI4SPN =>
      obtain ⟨⟨a, rfl, ha⟩, rfl, rfl, ⟨z, rfl, hz, h0⟩⟩ := ho
      simp only [immRange16] at hz
      have hu := ofI_lt 10 z
      have hu4 : ofI 10 z % 4 = 0 := by simp only [ofI]; omega
      have huz : ((ofI 10 z : Nat) : Int) = z := by simp only [ofI]; omega
      have q1 := fld_lt (ofI 10 z) 5 4
      have q2 := fld_lt (ofI 10 z) 9 6
      have q3 := fld_lt (ofI 10 z) 2 2
      have q4 := fld_lt (ofI 10 z) 3 3
      have p := piecesCIW _ hu hu4
      simp only [encode16, Option.getD_some] at hw
      have hw : h = half 0 0 (midCI (fld (ofI 10 z) 5 4 / 2)
          (fld (ofI 10 z) 5 4 % 2 * 16 + fld (ofI 10 z) 9 6)
          (fld (ofI 10 z) 2 2 * 16 + fld (ofI 10 z) 3 3 * 8 + (a - 8))) := by
        rw [hw]; congr 1; simp only [midCI]; omega
      have hf := half_fields hw (by omega) (by omega) (by omega) (by omega) (by omega)
      have him : uimmCIW h = ofI 10 z :=
        joinCIW hu hu4 (by omega) hf.2.2.2.1 hf.2.2.2.2.1 hf.2.2.2.2.2
      from_half h hf
      rw [him]
      omega
    case LW | SW =>
      obtain ⟨h1, h2, h3, ⟨z, rfl, hz⟩⟩ := ho
      first
        | (obtain ⟨a, rfl, ha⟩ := h1; subst h3)
        | (obtain ⟨a, rfl, ha⟩ := h3; subst h1)
      obtain ⟨b, rfl, hb⟩ := h2
      simp only [immRange16] at hz
      have hu := ofI_lt 7 z
      have hu4 : ofI 7 z % 4 = 0 := by simp only [ofI]; omega
      have huz : ((ofI 7 z : Nat) : Int) = z := by simp only [ofI]; omega
      have q1 := fld_lt (ofI 7 z) 5 3
      have q2 := fld_lt (ofI 7 z) 2 2
      have q3 := fld_lt (ofI 7 z) 6 6
      simp only [encode16, Option.getD_some, midCL_eq] at hw
      have hf := half_fields hw (by omega) (by omega) (by omega) (by omega) (by omega)
      have him : uimmW h = ofI 7 z :=
        joinW hu hu4 (by omega) (by omega) hf.2.2.2.1 hf.2.2.2.2.1 hf.2.2.2.2.2
      from_half h hf
      rw [him]
      omega
    case LD | SD =>
      obtain ⟨h1, h2, h3, ⟨z, rfl, hz⟩⟩ := ho
      first
        | (obtain ⟨a, rfl, ha⟩ := h1; subst h3)
        | (obtain ⟨a, rfl, ha⟩ := h3; subst h1)
      obtain ⟨b, rfl, hb⟩ := h2
      simp only [immRange16] at hz
      have hu := ofI_lt 8 z
      have hu4 : ofI 8 z % 8 = 0 := by simp only [ofI]; omega
      have huz : ((ofI 8 z : Nat) : Int) = z := by simp only [ofI]; omega
      have q1 := fld_lt (ofI 8 z) 5 3
      have q2 := fld_lt (ofI 8 z) 7 6
      simp only [encode16, Option.getD_some, midCL_eq] at hw
      have hf := half_fields hw (by omega) (by omega) (by omega) (by omega) (by omega)
      have him : uimmD h = ofI 8 z :=
        joinD hu hu4 (by omega) (by omega) hf.2.2.2.1 hf.2.2.2.2.1 hf.2.2.2.2.2
      from_half h hf
      rw [him]
      simp only [he, true_and]
      omega
    case NOP =>
      obtain ⟨rfl, rfl, rfl, ⟨z, rfl, hz⟩⟩ := ho
      simp only [immRange16] at hz
      have hs := sext_ofI6 z (by omega)
      have hu := ofI_lt 6 z
      simp only [encode16, Option.getD_some] at hw
      have hf := half_fields hw (by omega) (by omega) (fld_lt _ _ _) (by omega) (fld_lt _ _ _)
      have him : uimmCI h = ofI 6 z := joinCI hu hf.2.2.2.1 hf.2.2.2.2.2
      from_half h hf
      rw [him, hs]
    case ADDI | ADDIW =>
      obtain ⟨⟨a, rfl, ha⟩, rfl, rfl, ⟨z, rfl, hz⟩⟩ := ho
      simp only [immRange16] at hz
      have hs := sext_ofI6 z (by omega)
      have hu := ofI_lt 6 z
      simp only [encode16, Option.getD_some] at hw
      have hf := half_fields hw (by omega) (by omega) (fld_lt _ _ _) (by omega) (fld_lt _ _ _)
      have him : uimmCI h = ofI 6 z := joinCI hu hf.2.2.2.1 hf.2.2.2.2.2
      from_half h hf
      simp only [him, hs, he, true_and, and_true]
      omega
    case LI =>
      obtain ⟨⟨a, rfl, ha⟩, rfl, rfl, ⟨z, rfl, hz⟩⟩ := ho
      simp only [immRange16] at hz
      have hs := sext_ofI6 z (by omega)
      have hu := ofI_lt 6 z
      simp only [encode16, Option.getD_some] at hw
      have hf := half_fields hw (by omega) (by omega) (fld_lt _ _ _) (by omega) (fld_lt _ _ _)
      have him : uimmCI h = ofI 6 z := joinCI hu hf.2.2.2.1 hf.2.2.2.2.2
      from_half h hf
      rw [him, hs]
    case SLLI =>
      obtain ⟨⟨a, rfl, ha⟩, rfl, rfl, ⟨z, rfl, hz, h32⟩⟩ := ho
      simp only [immRange16] at hz
      have hu := ofI_lt 6 z
      have huz : ((ofI 6 z : Nat) : Int) = z := by simp only [ofI]; omega
      simp only [encode16, Option.getD_some] at hw
      have hf := half_fields hw (by omega) (by omega) (fld_lt _ _ _) (by omega) (fld_lt _ _ _)
      have him : uimmCI h = ofI 6 z := joinCI hu hf.2.2.2.1 hf.2.2.2.2.2
      from_half h hf
      refine ⟨fun hi => ?_, by rw [him]; exact huz⟩
      have := h32 hi
      simp only [fld]; omega
    case SRLI | SRAI =>
      obtain ⟨⟨a, rfl, ha⟩, rfl, rfl, ⟨z, rfl, hz, h32⟩⟩ := ho
      simp only [immRange16] at hz
      have hu := ofI_lt 6 z
      have huz : ((ofI 6 z : Nat) : Int) = z := by simp only [ofI]; omega
      simp only [encode16, Option.getD_some] at hw
      have hf := half_fields hw (by omega) (by omega) (fld_lt _ _ _) (by omega) (fld_lt _ _ _)
      have him : uimmCI h = ofI 6 z := joinCI hu hf.2.2.2.1 hf.2.2.2.2.2
      from_half h hf
      refine ⟨⟨by omega, fun hi => ?_⟩, by omega, by omega, by rw [him]; exact huz⟩
      have := h32 hi
      simp only [fld]; omega
    case ANDI =>
      obtain ⟨⟨a, rfl, ha⟩, rfl, rfl, ⟨z, rfl, hz⟩⟩ := ho
      simp only [immRange16] at hz
      have hs := sext_ofI6 z (by omega)
      have hu := ofI_lt 6 z
      simp only [encode16, Option.getD_some] at hw
      have hf := half_fields hw (by omega) (by omega) (fld_lt _ _ _) (by omega) (fld_lt _ _ _)
      have him : uimmCI h = ofI 6 z := joinCI hu hf.2.2.2.1 hf.2.2.2.2.2
      from_half h hf
      rw [him, hs]
      omega
    case JAL | J =>
      obtain ⟨rfl, rfl, rfl, ⟨z, rfl, hz⟩⟩ := ho
      simp only [immRange16] at hz
      have hs := sext_ofI12 z (by omega)
      have hu := ofI_lt 12 z
      have hu2 : ofI 12 z % 2 = 0 := by simp only [ofI]; omega
      have q1 := fld_lt (ofI 12 z) 4 4
      have q2 := fld_lt (ofI 12 z) 9 8
      have q3 := fld_lt (ofI 12 z) 10 10
      have q4 := fld_lt (ofI 12 z) 6 6
      have q5 := fld_lt (ofI 12 z) 7 7
      have q6 := fld_lt (ofI 12 z) 3 1
      have q7 := fld_lt (ofI 12 z) 5 5
      simp only [encode16, Option.getD_some, midCJ_eq] at hw
      have hf := half_fields hw (by omega) (by omega) (fld_lt _ _ _) (by omega) (by omega)
      have him : immCJ h = sext 12 (ofI 12 z) :=
        joinCJ hu hu2 hf.2.2.2.1 hf.2.2.2.2.1 hf.2.2.2.2.2
      from_half h hf
      simp only [him, hs, he, and_self]
    case BEQZ | BNEZ =>
      obtain ⟨rfl, ⟨a, rfl, ha⟩, rfl, ⟨z, rfl, hz⟩⟩ := ho
      simp only [immRange16] at hz
      have hs := sext_ofI9 z (by omega)
      have hu := ofI_lt 9 z
      have hu2 : ofI 9 z % 2 = 0 := by simp only [ofI]; omega
      have q1 := fld_lt (ofI 9 z) 8 8
      have q2 := fld_lt (ofI 9 z) 4 3
      have q3 := fld_lt (ofI 9 z) 7 6
      have q4 := fld_lt (ofI 9 z) 2 1
      have q5 := fld_lt (ofI 9 z) 5 5
      simp only [encode16, Option.getD_some, midCB, midCL_eq] at hw
      have hf := half_fields hw (by omega) (by omega) (by omega) (by omega) (by omega)
      have him : immCB h = sext 9 (ofI 9 z) :=
        joinCB hu hu2 (by omega) hf.2.2.2.1 hf.2.2.2.2.1 hf.2.2.2.2.2
      from_half h hf
      simp only [him, hs, and_true]
      omega
    case ADDI16SP =>
      obtain ⟨rfl, rfl, rfl, ⟨z, rfl, hz, h0⟩⟩ := ho
      simp only [immRange16] at hz
      have hs := sext_ofI10 z (by omega)
      have hu := ofI_lt 10 z
      have hu2 : ofI 10 z % 16 = 0 := by simp only [ofI]; omega
      have hn : ofI 10 z ≠ 0 := by simp only [ofI]; omega
      have q1 := fld_lt (ofI 10 z) 9 9
      have q2 := fld_lt (ofI 10 z) 4 4
      have q3 := fld_lt (ofI 10 z) 6 6
      have q4 := fld_lt (ofI 10 z) 8 7
      have q5 := fld_lt (ofI 10 z) 5 5
      have p := piecesSP _ hu hu2
      simp only [encode16, Option.getD_some] at hw
      have hf := half_fields hw (by omega) (by omega) (by omega) (by omega) (by omega)
      have him : imm16sp h = sext 10 (ofI 10 z) := joinSP hu hu2 hf.2.2.2.1 hf.2.2.2.2.2
      from_half h hf
      simp only [him, hs, and_true]
      omega
    case LUI =>
      obtain ⟨⟨a, rfl, ha⟩, h2, rfl, rfl, ⟨z, rfl, hz, h0⟩⟩ := ho
      simp only [immRange16] at hz
      simp only [ne_eq, Option.some.injEq] at h2
      have hs := sext_ofI18 z (by omega)
      have hu := ofI_lt 18 z
      have hu2 : ofI 18 z % 4096 = 0 := by simp only [ofI]; omega
      have hn : ofI 18 z ≠ 0 := by simp only [ofI]; omega
      have q1 := fld_lt (ofI 18 z) 17 17
      have q2 := fld_lt (ofI 18 z) 16 12
      have p := piecesLUI _ hu hu2
      simp only [encode16, Option.getD_some] at hw
      have hf := half_fields hw (by omega) (by omega) (by omega) (by omega) (by omega)
      have him : immCLui h = sext 18 (ofI 18 z) := joinLUI hu hu2 hf.2.2.2.1 hf.2.2.2.2.2
      from_half h hf
      simp only [him, hs, and_true]
      omega
    case LWSP =>
      obtain ⟨⟨a, rfl, ha⟩, rfl, rfl, ⟨z, rfl, hz⟩⟩ := ho
      simp only [immRange16] at hz
      have hu := ofI_lt 8 z
      have hu4 : ofI 8 z % 4 = 0 := by simp only [ofI]; omega
      have huz : ((ofI 8 z : Nat) : Int) = z := by simp only [ofI]; omega
      have q1 := fld_lt (ofI 8 z) 4 2
      have q2 := fld_lt (ofI 8 z) 7 6
      simp only [encode16, Option.getD_some] at hw
      have hf := half_fields hw (by omega) (by omega) (fld_lt _ _ _) (by omega) (by omega)
      have him : uimmLwsp h = ofI 8 z := joinLWSP hu hu4 hf.2.2.2.1 hf.2.2.2.2.2
      from_half h hf
      rw [him]
      omega
    case LDSP =>
      obtain ⟨⟨a, rfl, ha⟩, rfl, rfl, ⟨z, rfl, hz⟩⟩ := ho
      simp only [immRange16] at hz
      have hu := ofI_lt 9 z
      have hu4 : ofI 9 z % 8 = 0 := by simp only [ofI]; omega
      have huz : ((ofI 9 z : Nat) : Int) = z := by simp only [ofI]; omega
      have q1 := fld_lt (ofI 9 z) 4 3
      have q2 := fld_lt (ofI 9 z) 8 6
      simp only [encode16, Option.getD_some] at hw
      have hf := half_fields hw (by omega) (by omega) (fld_lt _ _ _) (by omega) (by omega)
      have him : uimmLdsp h = ofI 9 z := joinLDSP hu hu4 hf.2.2.2.1 hf.2.2.2.2.2
      from_half h hf
      simp only [him, he, and_true]
      omega
    case SWSP =>
      obtain ⟨rfl, rfl, ⟨a, rfl, ha⟩, ⟨z, rfl, hz⟩⟩ := ho
      simp only [immRange16] at hz
      have hu := ofI_lt 8 z
      have hu4 : ofI 8 z % 4 = 0 := by simp only [ofI]; omega
      have huz : ((ofI 8 z : Nat) : Int) = z := by simp only [ofI]; omega
      have q1 := fld_lt (ofI 8 z) 5 2
      have q2 := fld_lt (ofI 8 z) 7 6
      simp only [encode16, Option.getD_some] at hw
      have hw : h = half 2 6 (midCI (fld (ofI 8 z) 5 2 / 8)
          (fld (ofI 8 z) 5 2 % 8 * 4 + fld (ofI 8 z) 7 6) a) := by
        rw [hw]; congr 1; simp only [midCI]; omega
      have hf := half_fields hw (by omega) (by omega) (by omega) (by omega) (by omega)
      have him : uimmSwsp h = ofI 8 z := joinSWSP hu hu4 hf.2.2.2.1 hf.2.2.2.2.1
      from_half h hf
      rw [him]
      omega
    case SDSP =>
      obtain ⟨rfl, rfl, ⟨a, rfl, ha⟩, ⟨z, rfl, hz⟩⟩ := ho
      simp only [immRange16] at hz
      have hu := ofI_lt 9 z
      have hu4 : ofI 9 z % 8 = 0 := by simp only [ofI]; omega
      have huz : ((ofI 9 z : Nat) : Int) = z := by simp only [ofI]; omega
      have q1 := fld_lt (ofI 9 z) 5 3
      have q2 := fld_lt (ofI 9 z) 8 6
      simp only [encode16, Option.getD_some] at hw
      have hw : h = half 2 7 (midCI (fld (ofI 9 z) 5 3 / 4)
          (fld (ofI 9 z) 5 3 % 4 * 8 + fld (ofI 9 z) 8 6) a) := by
        rw [hw]; congr 1; simp only [midCI]; omega
      have hf := half_fields hw (by omega) (by omega) (by omega) (by omega) (by omega)
      have him : uimmSdsp h = ofI 9 z := joinSDSP hu hu4 hf.2.2.2.1 hf.2.2.2.2.1
      from_half h hf
      simp only [him, he, true_and]
      omega
    case SUB | XOR | OR | AND | SUBW | ADDW =>
      obtain ⟨⟨a, rfl, ha⟩, rfl, ⟨b, rfl, hb⟩, rfl⟩ := ho
      simp only [encode16, Option.getD_some, midCL_eq] at hw
      have hf := half_fields hw (by omega) (by omega) (by omega) (by omega) (by omega)
      from_half h hf
      try simp only [he, and_true]
      omega
    case JR | JALR =>
      obtain ⟨rfl, ⟨a, rfl, ha⟩, rfl, rfl⟩ := ho
      simp only [encode16, Option.getD_some] at hw
      have hf := half_fields hw (by omega) (by omega) (by omega) (by omega) (by omega)
      from_half h hf
      omega
    case MV =>
      obtain ⟨⟨a, rfl, ha⟩, rfl, ⟨b, rfl, hb⟩, rfl⟩ := ho
      simp only [encode16, Option.getD_some] at hw
      have hf := half_fields hw (by omega) (by omega) (by omega) (by omega) (by omega)
      from_half h hf
      omega
    case ADD =>
      obtain ⟨⟨a, rfl, ha⟩, rfl, ⟨b, rfl, hb⟩, rfl⟩ := ho
      simp only [encode16, Option.getD_some] at hw
      have hf := half_fields hw (by omega) (by omega) (by omega) (by omega) (by omega)
      from_half h hf
      omega
    case EBREAK =>
      obtain ⟨rfl, rfl, rfl, rfl⟩ := ho
      simp only [encode16] at hw
      have hf := half_fields hw (by omega) (by omega) (by omega) (by omega) (by omega)
      from_half h hf
  case Zicfiss =>
    cases o
    all_goals simp only [operands16] at ho
    case C_SSPUSH | C_SSPOPCHK =>
      obtain ⟨rfl, rfl, rfl, rfl⟩ := ho
      simp only [encode16] at hw
      subst hw
      simp [official16, rd16, rs116, rs216, imm16]
  all_goals exact ho.elim

/-! ## Reading, then assembling -/

theorem half_cong {q f3 b r c q' f3' b' r' c' : Nat} (h1 : q = q') (h2 : f3 = f3') (h3 : b = b')
    (h4 : r = r') (h5 : c = c') : half q f3 (midCI b r c) = half q' f3' (midCI b' r' c') := by
  subst_vars; rfl

set_option maxHeartbeats 2000000 in
/-- Reading the operands of an accepted halfword and assembling them gives the halfword back; for
`c.ebreak`, which ignores bits 6..2, if they are zero. -/
theorem encode16_fields (isa : Isa) (h : Nat) (hh : h < 2 ^ 16) (op : OpcodeKind)
    (ha : accepts16 isa h op) (hb : op = .C .EBREAK → fld h 6 2 = 0) :
    encode16 op ((rd16 h op).getD 0) ((rs116 h op).getD 0) ((rs216 h op).getD 0)
      ((imm16 h op).getD 0) = h := by
  obtain ⟨c1, c2, c3, c4, c5⟩ := bounds16 h
  obtain ⟨d1, d2, d3, d4, d5, d6, d7, d8, d9, d10, d11, d12, d13, d14, d15, d16, d17, d18, d19, d20,
    d21⟩ := fld_derived16 h
  rcases op with o | o | o | o | o | o | o | o | o | o
  case C =>
    refine Eq.trans ?_ (half_of_fields h hh).symm
    cases o
    all_goals simp only [accepts16, official16, quad] at ha
    all_goals simp only [rd16, rs116, rs216, imm16, regC, encode16, Option.getD_some, midCL_eq,
      midCJ_eq, midCB]
    case ADDI4SPN =>
      rw [ofI_nat 10 _ (uimmCIW_lt h)]
      obtain ⟨g1, g2, g3, g4⟩ := fieldsCIW (u := uimmCIW h) rfl (fld_lt _ _ _) (fld_lt _ _ _)
        (fld_lt _ _ _) (fld_lt _ _ _)
      rw [g1, g2, g3, g4]
      rw [show 8 + fld h 4 2 - 8 + fld h 5 5 * 2 ^ 3 + fld h 6 6 * 2 ^ 4 + fld h 10 7 * 2 ^ 5
        + fld h 12 11 * 2 ^ 9 = midCI (fld h 12 11 / 2) (fld h 12 11 % 2 * 16 + fld h 10 7)
          (fld h 6 6 * 16 + fld h 5 5 * 8 + fld h 4 2) by simp only [midCI]; omega]
      apply half_cong <;> omega
    case LW | SW =>
      rw [ofI_nat 7 _ (uimmW_lt h)]
      obtain ⟨g1, g2, g3⟩ := fieldsW (u := uimmW h) rfl (fld_lt _ _ _) (fld_lt _ _ _) (fld_lt _ _ _)
      rw [g1, g2, g3]
      apply half_cong <;> omega
    case LD | SD =>
      rw [ofI_nat 8 _ (uimmD_lt h)]
      obtain ⟨g1, g2⟩ := fieldsD (u := uimmD h) rfl (fld_lt _ _ _) (fld_lt _ _ _)
      rw [g1, g2]
      apply half_cong <;> omega
    case NOP | ADDI | ADDIW | LI | ANDI =>
      rw [ofI_sext 6 _ (uimmCI_lt h)]
      obtain ⟨g1, g2⟩ := fieldsCI (u := uimmCI h) rfl (fld_lt _ _ _) (fld_lt _ _ _)
      rw [g1, g2]
      apply half_cong <;> omega
    case SRLI | SRAI | SLLI =>
      rw [ofI_nat 6 _ (uimmCI_lt h)]
      obtain ⟨g1, g2⟩ := fieldsCI (u := uimmCI h) rfl (fld_lt _ _ _) (fld_lt _ _ _)
      rw [g1, g2]
      apply half_cong <;> omega
    case JAL | J =>
      rw [immCJ, ofI_sext 12 _ (by omega)]
      obtain ⟨g1, g2, g3, g4, g5, g6, g7, g8⟩ := fieldsCJ (u := fld h 12 12 * 2 ^ 11
        + fld h 11 11 * 2 ^ 4 + fld h 10 9 * 2 ^ 8 + fld h 8 8 * 2 ^ 10 + fld h 7 7 * 2 ^ 6
        + fld h 6 6 * 2 ^ 7 + fld h 5 3 * 2 + fld h 2 2 * 2 ^ 5) rfl (fld_lt _ _ _) (fld_lt _ _ _)
        (fld_lt _ _ _) (fld_lt _ _ _) (fld_lt _ _ _) (fld_lt _ _ _) (fld_lt _ _ _) (fld_lt _ _ _)
      rw [g1, g2, g3, g4, g5, g6, g7, g8]
      apply half_cong <;> omega
    case BEQZ | BNEZ =>
      rw [immCB, ofI_sext 9 _ (by omega)]
      obtain ⟨g1, g2, g3, g4, g5⟩ := fieldsCB (u := fld h 12 12 * 2 ^ 8 + fld h 11 10 * 2 ^ 3
        + fld h 6 5 * 2 ^ 6 + fld h 4 3 * 2 + fld h 2 2 * 2 ^ 5) rfl (fld_lt _ _ _) (fld_lt _ _ _)
        (fld_lt _ _ _) (fld_lt _ _ _) (fld_lt _ _ _)
      rw [g1, g2, g3, g4, g5]
      apply half_cong <;> omega
    case ADDI16SP =>
      rw [imm16sp, ofI_sext 10 _ (by omega)]
      obtain ⟨g1, g2, g3, g4, g5⟩ := fieldsSP (u := fld h 12 12 * 2 ^ 9 + fld h 6 6 * 2 ^ 4
        + fld h 5 5 * 2 ^ 6 + fld h 4 3 * 2 ^ 7 + fld h 2 2 * 2 ^ 5) rfl (fld_lt _ _ _)
        (fld_lt _ _ _) (fld_lt _ _ _) (fld_lt _ _ _) (fld_lt _ _ _)
      rw [g1, g2, g3, g4, g5]
      apply half_cong <;> omega
    case LUI =>
      rw [immCLui, ofI_sext 18 _ (by omega)]
      obtain ⟨g1, g2⟩ := fieldsLUI (u := fld h 12 12 * 2 ^ 17 + fld h 6 2 * 2 ^ 12) rfl
        (fld_lt _ _ _) (fld_lt _ _ _)
      rw [g1, g2]
      apply half_cong <;> omega
    case LWSP =>
      rw [ofI_nat 8 _ (uimmLwsp_lt h)]
      obtain ⟨g1, g2, g3⟩ := fieldsLWSP (u := uimmLwsp h) rfl (fld_lt _ _ _) (fld_lt _ _ _)
        (fld_lt _ _ _)
      rw [g1, g2, g3]
      apply half_cong <;> omega
    case LDSP =>
      rw [ofI_nat 9 _ (uimmLdsp_lt h)]
      obtain ⟨g1, g2, g3⟩ := fieldsLDSP (u := uimmLdsp h) rfl (fld_lt _ _ _) (fld_lt _ _ _)
        (fld_lt _ _ _)
      rw [g1, g2, g3]
      apply half_cong <;> omega
    case SWSP =>
      rw [ofI_nat 8 _ (uimmSwsp_lt h)]
      obtain ⟨g1, g2⟩ := fieldsSWSP (u := uimmSwsp h) rfl (fld_lt _ _ _) (fld_lt _ _ _)
      rw [g1, g2, show fld h 6 2 + fld h 8 7 * 2 ^ 5 + fld h 12 9 * 2 ^ 7
        = midCI (fld h 12 9 / 8) (fld h 12 9 % 8 * 4 + fld h 8 7) (fld h 6 2) by
          simp only [midCI]; omega]
      apply half_cong <;> omega
    case SDSP =>
      rw [ofI_nat 9 _ (uimmSdsp_lt h)]
      obtain ⟨g1, g2⟩ := fieldsSDSP (u := uimmSdsp h) rfl (fld_lt _ _ _) (fld_lt _ _ _)
      rw [g1, g2, show fld h 6 2 + fld h 9 7 * 2 ^ 5 + fld h 12 10 * 2 ^ 8
        = midCI (fld h 12 10 / 4) (fld h 12 10 % 4 * 8 + fld h 9 7) (fld h 6 2) by
          simp only [midCI]; omega]
      apply half_cong <;> omega
    case EBREAK =>
      have := hb rfl
      apply half_cong <;> omega
    all_goals apply half_cong <;> omega
  case Zicfiss =>
    cases o
    case C_SSPUSH | C_SSPOPCHK => exact (show h = _ from ha).symm
    all_goals exact ha.elim
  all_goals exact ha.elim

end Raki
