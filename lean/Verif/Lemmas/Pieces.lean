import Verif.Lemmas.Fld
import Verif.Spec.Asm
/-!
# Taking scattered immediates apart and putting them together

One pair of lemmas for each way in which a compressed immediate is scattered.
-/

namespace Raki

open Spec

theorem piecesCI (u : Nat) (h : u < 2 ^ 6) :
    u = fld u 5 5 * 2 ^ 5 + fld u 4 0 := by
  simp only [fld]; omega

theorem fieldsCI {u a b : Nat}
    (h : u = a * 2 ^ 5 + b)
    (ha : a < 2) (hb : b < 32) :
    fld u 5 5 = a ∧ fld u 4 0 = b := by
  simp only [fld]
  refine ⟨?_, ?_⟩ <;> omega

theorem piecesCIW (u : Nat) (h : u < 2 ^ 10) (hz : u % 4 = 0) :
    u = fld u 5 4 * 2 ^ 4 + fld u 9 6 * 2 ^ 6 + fld u 2 2 * 2 ^ 2 + fld u 3 3 * 2 ^ 3 := by
  simp only [fld]; omega

theorem fieldsCIW {u a b c d : Nat}
    (h : u = a * 2 ^ 4 + b * 2 ^ 6 + c * 2 ^ 2 + d * 2 ^ 3)
    (ha : a < 4) (hb : b < 16) (hc : c < 2) (hd : d < 2) :
    fld u 5 4 = a ∧ fld u 9 6 = b ∧ fld u 2 2 = c ∧ fld u 3 3 = d := by
  simp only [fld]
  refine ⟨?_, ?_, ?_, ?_⟩ <;> omega

theorem piecesW (u : Nat) (h : u < 2 ^ 7) (hz : u % 4 = 0) :
    u = fld u 5 3 * 2 ^ 3 + fld u 2 2 * 2 ^ 2 + fld u 6 6 * 2 ^ 6 := by
  simp only [fld]; omega

theorem fieldsW {u a b c : Nat}
    (h : u = a * 2 ^ 3 + b * 2 ^ 2 + c * 2 ^ 6)
    (ha : a < 8) (hb : b < 2) (hc : c < 2) :
    fld u 5 3 = a ∧ fld u 2 2 = b ∧ fld u 6 6 = c := by
  simp only [fld]
  refine ⟨?_, ?_, ?_⟩ <;> omega

theorem piecesD (u : Nat) (h : u < 2 ^ 8) (hz : u % 8 = 0) :
    u = fld u 5 3 * 2 ^ 3 + fld u 7 6 * 2 ^ 6 := by
  simp only [fld]; omega

theorem fieldsD {u a b : Nat}
    (h : u = a * 2 ^ 3 + b * 2 ^ 6)
    (ha : a < 8) (hb : b < 4) :
    fld u 5 3 = a ∧ fld u 7 6 = b := by
  simp only [fld]
  refine ⟨?_, ?_⟩ <;> omega

theorem piecesCJ (u : Nat) (h : u < 2 ^ 12) (hz : u % 2 = 0) :
    u = fld u 11 11 * 2 ^ 11 + fld u 4 4 * 2 ^ 4 + fld u 9 8 * 2 ^ 8 + fld u 10 10 * 2 ^ 10 + fld u 6 6 * 2 ^ 6 + fld u 7 7 * 2 ^ 7 + fld u 3 1 * 2 + fld u 5 5 * 2 ^ 5 := by
  simp only [fld]; omega

theorem fieldsCJ {u a b c d e f g k : Nat}
    (h : u = a * 2 ^ 11 + b * 2 ^ 4 + c * 2 ^ 8 + d * 2 ^ 10 + e * 2 ^ 6 + f * 2 ^ 7 + g * 2 + k * 2 ^ 5)
    (ha : a < 2) (hb : b < 2) (hc : c < 4) (hd : d < 2) (he : e < 2) (hf : f < 2) (hg : g < 8) (hk : k < 2) :
    fld u 11 11 = a ∧ fld u 4 4 = b ∧ fld u 9 8 = c ∧ fld u 10 10 = d ∧ fld u 6 6 = e ∧ fld u 7 7 = f ∧ fld u 3 1 = g ∧ fld u 5 5 = k := by
  simp only [fld]
  refine ⟨?_, ?_, ?_, ?_, ?_, ?_, ?_, ?_⟩ <;> omega

theorem piecesCB (u : Nat) (h : u < 2 ^ 9) (hz : u % 2 = 0) :
    u = fld u 8 8 * 2 ^ 8 + fld u 4 3 * 2 ^ 3 + fld u 7 6 * 2 ^ 6 + fld u 2 1 * 2 + fld u 5 5 * 2 ^ 5 := by
  simp only [fld]; omega

theorem fieldsCB {u a b c d e : Nat}
    (h : u = a * 2 ^ 8 + b * 2 ^ 3 + c * 2 ^ 6 + d * 2 + e * 2 ^ 5)
    (ha : a < 2) (hb : b < 4) (hc : c < 4) (hd : d < 4) (he : e < 2) :
    fld u 8 8 = a ∧ fld u 4 3 = b ∧ fld u 7 6 = c ∧ fld u 2 1 = d ∧ fld u 5 5 = e := by
  simp only [fld]
  refine ⟨?_, ?_, ?_, ?_, ?_⟩ <;> omega

theorem piecesSP (u : Nat) (h : u < 2 ^ 10) (hz : u % 16 = 0) :
    u = fld u 9 9 * 2 ^ 9 + fld u 4 4 * 2 ^ 4 + fld u 6 6 * 2 ^ 6 + fld u 8 7 * 2 ^ 7 + fld u 5 5 * 2 ^ 5 := by
  simp only [fld]; omega

theorem fieldsSP {u a b c d e : Nat}
    (h : u = a * 2 ^ 9 + b * 2 ^ 4 + c * 2 ^ 6 + d * 2 ^ 7 + e * 2 ^ 5)
    (ha : a < 2) (hb : b < 2) (hc : c < 2) (hd : d < 4) (he : e < 2) :
    fld u 9 9 = a ∧ fld u 4 4 = b ∧ fld u 6 6 = c ∧ fld u 8 7 = d ∧ fld u 5 5 = e := by
  simp only [fld]
  refine ⟨?_, ?_, ?_, ?_, ?_⟩ <;> omega

theorem piecesLUI (u : Nat) (h : u < 2 ^ 18) (hz : u % 4096 = 0) :
    u = fld u 17 17 * 2 ^ 17 + fld u 16 12 * 2 ^ 12 := by
  simp only [fld]; omega

theorem fieldsLUI {u a b : Nat}
    (h : u = a * 2 ^ 17 + b * 2 ^ 12)
    (ha : a < 2) (hb : b < 32) :
    fld u 17 17 = a ∧ fld u 16 12 = b := by
  simp only [fld]
  refine ⟨?_, ?_⟩ <;> omega

theorem piecesLWSP (u : Nat) (h : u < 2 ^ 8) (hz : u % 4 = 0) :
    u = fld u 5 5 * 2 ^ 5 + fld u 4 2 * 2 ^ 2 + fld u 7 6 * 2 ^ 6 := by
  simp only [fld]; omega

theorem fieldsLWSP {u a b c : Nat}
    (h : u = a * 2 ^ 5 + b * 2 ^ 2 + c * 2 ^ 6)
    (ha : a < 2) (hb : b < 8) (hc : c < 4) :
    fld u 5 5 = a ∧ fld u 4 2 = b ∧ fld u 7 6 = c := by
  simp only [fld]
  refine ⟨?_, ?_, ?_⟩ <;> omega

theorem piecesLDSP (u : Nat) (h : u < 2 ^ 9) (hz : u % 8 = 0) :
    u = fld u 5 5 * 2 ^ 5 + fld u 4 3 * 2 ^ 3 + fld u 8 6 * 2 ^ 6 := by
  simp only [fld]; omega

theorem fieldsLDSP {u a b c : Nat}
    (h : u = a * 2 ^ 5 + b * 2 ^ 3 + c * 2 ^ 6)
    (ha : a < 2) (hb : b < 4) (hc : c < 8) :
    fld u 5 5 = a ∧ fld u 4 3 = b ∧ fld u 8 6 = c := by
  simp only [fld]
  refine ⟨?_, ?_, ?_⟩ <;> omega

theorem piecesSWSP (u : Nat) (h : u < 2 ^ 8) (hz : u % 4 = 0) :
    u = fld u 5 2 * 2 ^ 2 + fld u 7 6 * 2 ^ 6 := by
  simp only [fld]; omega

theorem fieldsSWSP {u a b : Nat}
    (h : u = a * 2 ^ 2 + b * 2 ^ 6)
    (ha : a < 16) (hb : b < 4) :
    fld u 5 2 = a ∧ fld u 7 6 = b := by
  simp only [fld]
  refine ⟨?_, ?_⟩ <;> omega

theorem piecesSDSP (u : Nat) (h : u < 2 ^ 9) (hz : u % 8 = 0) :
    u = fld u 5 3 * 2 ^ 3 + fld u 8 6 * 2 ^ 6 := by
  simp only [fld]; omega

theorem fieldsSDSP {u a b : Nat}
    (h : u = a * 2 ^ 3 + b * 2 ^ 6)
    (ha : a < 8) (hb : b < 8) :
    fld u 5 3 = a ∧ fld u 8 6 = b := by
  simp only [fld]
  refine ⟨?_, ?_⟩ <;> omega

end Raki
