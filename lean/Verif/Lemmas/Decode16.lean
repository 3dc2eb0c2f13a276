import Verif.Lemmas.Operand32
import Verif.Lemmas.Opcode16
/-!
# Operands of the 16-bit decoder, and the 16-bit decoder as a whole
-/

namespace Raki

open Spec

set_option linter.unusedSimpArgs false

theorem addU8_fld (w : BitVec 16) (e s : Nat) (h : e + 1 - s ≤ 3) :
    addU (BitVec.ofNat 16 (fld w.toNat e s)) 8 = .ok (BitVec.ofNat 16 (8 + fld w.toNat e s)) := by
  have h1 := fld_lt w.toNat e s
  have h2 : 2 ^ (e + 1 - s) ≤ 2 ^ 3 := Nat.pow_le_pow_right (by decide) h
  have h3 : (8 : BitVec 16).toNat = 8 := rfl
  unfold addU
  rw [toNat_ofNat_fld16, h3, if_pos (by omega)]
  congr 1
  apply BitVec.eq_of_toNat_eq
  rw [BitVec.toNat_add, toNat_ofNat_fld16, h3, BitVec.toNat_ofNat, Nat.add_comm]

theorem toNat_regC (w : BitVec 16) (e s : Nat) (h : e + 1 - s ≤ 3) :
    (BitVec.ofNat 16 (8 + fld w.toNat e s)).toNat = regC (fld w.toNat e s) := by
  have h1 := fld_lt w.toNat e s
  have h2 : 2 ^ (e + 1 - s) ≤ 2 ^ 3 := Nat.pow_le_pow_right (by decide) h
  rw [BitVec.toNat_ofNat, Nat.mod_eq_of_lt (by omega), regC]

theorem U16.set_fld (w : BitVec 16) (e s : Nat) (mask : List Nat) (hnd : mask.reverse.Nodup)
    (hms : ∀ m ∈ mask.reverse, m < 32) (hl : mask.reverse.length ≤ 32) :
    U16.set (BitVec.ofNat 16 (fld w.toNat e s)) mask
      = .ok (BitVec.ofNat 32 (scatter (fld w.toNat e s) mask.reverse 0)) := by
  rw [U16.set_eq _ _ hnd hms hl, toNat_ofNat_fld16]

theorem fld_lt32' (w : BitVec 16) (e s : Nat) : fld w.toNat e s < 2 ^ 32 :=
  Nat.lt_of_le_of_lt (fld_le _ _ _) (by have := w.isLt; omega)

/-- The bit range is proper. -/
def okS (e s : Nat) : Prop := s ≤ e ∧ e - s + 1 < 16 ∧ s < 16
/-- The mask is duplicate-free and in range. -/
def okM (m : List Nat) : Prop := m.reverse.Nodup ∧ (∀ x ∈ m.reverse, x < 32) ∧ m.reverse.length ≤ 32

instance (e s : Nat) : Decidable (okS e s) := by unfold okS; infer_instance
instance (m : List Nat) : Decidable (okM m) := by unfold okM; infer_instance

/-- Slicing and scattering one field. -/
theorem set1 {α : Type} (w : BitVec 16) (e s : Nat) (mask : List Nat) (v : Nat)
    (f : BitVec 32 → RustM α) (hs : okS e s) (hm : okM mask)
    (hv : scatter (fld w.toNat e s) mask.reverse 0 = v) :
    (do let a ← U16.slice w e s
        let b ← U16.set a mask
        f b) = f (BitVec.ofNat 32 v) := by
  obtain ⟨h1, h2, h3⟩ := hs
  obtain ⟨hnd, hms, hl⟩ := hm
  rw [U16.slice_eq _ _ _ h1 h2 h3, RustM.bind_ok, U16.set_fld _ _ _ _ hnd hms hl, hv, RustM.bind_ok]

/-- Slicing and scattering two fields to disjoint positions. -/
theorem set2 {α : Type} (w : BitVec 16) (e s : Nat) (mask : List Nat) (e' s' : Nat)
    (mask' : List Nat) (v : Nat)
    (f : BitVec 32 → RustM α) (hs : okS e s) (hm : okM mask) (hs' : okS e' s') (hm' : okM mask')
    (hdis : ∀ m ∈ mask.reverse, m ∉ mask'.reverse)
    (hv : scatter (fld w.toNat e s) mask.reverse 0 + scatter (fld w.toNat e' s') mask'.reverse 0 = v) :
    (do let a ← U16.slice w e s
        let b ← U16.set a mask
        let c ← U16.slice w e' s'
        let d ← U16.set c mask'
        f (b ||| d)) = f (BitVec.ofNat 32 v) := by
  obtain ⟨h1, h2, h3⟩ := hs
  obtain ⟨hnd, hms, hl⟩ := hm
  obtain ⟨h1', h2', h3'⟩ := hs'
  obtain ⟨hnd', hms', hl'⟩ := hm'
  rw [U16.slice_eq _ _ _ h1 h2 h3, RustM.bind_ok, U16.set_fld _ _ _ _ hnd hms hl, RustM.bind_ok,
    U16.slice_eq _ _ _ h1' h2' h3', RustM.bind_ok, U16.set_fld _ _ _ _ hnd' hms' hl', RustM.bind_ok,
    scatter_or _ _ _ _ (fld_lt32' _ _ _) (fld_lt32' _ _ _) hnd hnd' hms hms' hdis hl hl', hv]

theorem parse_rd16_C (w : BitVec 16) (o : COpcode) :
    C.parse_rd w o = .ok (rd16 w.toNat (.C o)) := by
  unfold C.parse_rd
  simp only [U16.slice_eq, addU8_fld, toNat_regC, toNat_ofNat_fld16, RustM.bind_ok,
    Nat.reduceLeDiff, Nat.reduceSub, Nat.reduceAdd, Nat.reduceLT]
  cases o <;> rfl

theorem parse_rs116_C (w : BitVec 16) (o : COpcode) :
    C.parse_rs1 w o = .ok (rs116 w.toNat (.C o)) := by
  unfold C.parse_rs1
  simp only [U16.slice_eq, addU8_fld, toNat_regC, toNat_ofNat_fld16, RustM.bind_ok,
    Nat.reduceLeDiff, Nat.reduceSub, Nat.reduceAdd, Nat.reduceLT]
  cases o <;> rfl

theorem parse_rs216_C (w : BitVec 16) (o : COpcode) :
    C.parse_rs2 w o = .ok (rs216 w.toNat (.C o)) := by
  unfold C.parse_rs2
  simp only [U16.slice_eq, addU8_fld, toNat_regC, toNat_ofNat_fld16, RustM.bind_ok,
    Nat.reduceLeDiff, Nat.reduceSub, Nat.reduceAdd, Nat.reduceLT]
  cases o <;> rfl

theorem uimmCI_lt (h : Nat) : uimmCI h < 2 ^ 6 := by
  have h1 := fld_lt h 12 12
  have h2 := fld_lt h 6 2
  simp only [uimmCI]; omega

theorem uimmW_lt (h : Nat) : uimmW h < 2 ^ 7 := by
  have := fld_lt h 12 10
  have := fld_lt h 6 6
  have := fld_lt h 5 5
  simp only [uimmW]; omega

theorem uimmD_lt (h : Nat) : uimmD h < 2 ^ 8 := by
  have := fld_lt h 12 10
  have := fld_lt h 6 5
  simp only [uimmD]; omega

theorem uimmCIW_lt (h : Nat) : uimmCIW h < 2 ^ 10 := by
  have := fld_lt h 12 11
  have := fld_lt h 10 7
  have := fld_lt h 6 6
  have := fld_lt h 5 5
  simp only [uimmCIW]; omega

theorem uimmLwsp_lt (h : Nat) : uimmLwsp h < 2 ^ 8 := by
  have := fld_lt h 12 12
  have := fld_lt h 6 4
  have := fld_lt h 3 2
  simp only [uimmLwsp]; omega

theorem uimmLdsp_lt (h : Nat) : uimmLdsp h < 2 ^ 9 := by
  have := fld_lt h 12 12
  have := fld_lt h 6 5
  have := fld_lt h 4 2
  simp only [uimmLdsp]; omega

theorem uimmSwsp_lt (h : Nat) : uimmSwsp h < 2 ^ 8 := by
  have := fld_lt h 12 9
  have := fld_lt h 8 7
  simp only [uimmSwsp]; omega

theorem uimmSdsp_lt (h : Nat) : uimmSdsp h < 2 ^ 9 := by
  have := fld_lt h 12 10
  have := fld_lt h 9 7
  simp only [uimmSdsp]; omega

theorem c_immW (w : BitVec 16) :
    (do RustM.ok ((← U16.set (← U16.slice w 12 10) [5, 4, 3])
          ||| (← U16.set (← U16.slice w 6 5) [2, 6]))) = RustM.ok (BitVec.ofNat 32 (uimmW w.toNat)) := by
  refine (set2 w 12 10 [5, 4, 3] 6 5 [2, 6] (uimmW w.toNat)
    RustM.ok (by decide) (by decide) (by decide) (by decide) (by decide) (by unfold uimmW; bits; omega)).trans ?_
  rfl

theorem c_immD (w : BitVec 16) :
    (do RustM.ok ((← U16.set (← U16.slice w 12 10) [5, 4, 3])
          ||| (← U16.set (← U16.slice w 6 5) [7, 6]))) = RustM.ok (BitVec.ofNat 32 (uimmD w.toNat)) := by
  refine (set2 w 12 10 [5, 4, 3] 6 5 [7, 6] (uimmD w.toNat)
    RustM.ok (by decide) (by decide) (by decide) (by decide) (by decide) (by unfold uimmD; bits; omega)).trans ?_
  rfl

theorem c_immCIW (w : BitVec 16) :
    (do RustM.ok ((← U16.set (← U16.slice w 12 5) [5, 4, 9, 8, 7, 6, 2, 3]))) = RustM.ok (BitVec.ofNat 32 (uimmCIW w.toNat)) := by
  refine (set1 w 12 5 [5, 4, 9, 8, 7, 6, 2, 3] (uimmCIW w.toNat)
    RustM.ok (by decide) (by decide) (by unfold uimmCIW; bits; omega)).trans ?_
  rfl

theorem c_immCI (w : BitVec 16) :
    (do RustM.ok ((← U16.set (← U16.slice w 6 2) [4, 3, 2, 1, 0])
          ||| (← U16.set (← U16.slice w 12 12) [5]))) = RustM.ok (BitVec.ofNat 32 (uimmCI w.toNat)) := by
  refine (set2 w 6 2 [4, 3, 2, 1, 0] 12 12 [5] (uimmCI w.toNat)
    RustM.ok (by decide) (by decide) (by decide) (by decide) (by decide) (by unfold uimmCI; bits; omega)).trans ?_
  rfl

theorem c_immCIs (w : BitVec 16) :
    (do let imm16 := asI32 ((← U16.set (← U16.slice w 6 2) [4, 3, 2, 1, 0])
          ||| (← U16.set (← U16.slice w 12 12) [5]))
        to_signed_nbit imm16 6) = RustM.ok (sext 6 (uimmCI w.toNat)) := by
  refine (set2 w 6 2 [4, 3, 2, 1, 0] 12 12 [5] (uimmCI w.toNat)
    (fun x => to_signed_nbit (asI32 x) 6) (by decide) (by decide) (by decide) (by decide) (by decide) (by unfold uimmCI; bits; omega)).trans ?_
  exact to_signed_nbit_small _ 6 (by decide) (by decide) (uimmCI_lt _)

theorem c_immCJ (w : BitVec 16) :
    (do let imm16 := asI32 (← U16.set (← U16.slice w 12 2) [11, 4, 9, 8, 10, 6, 7, 3, 2, 1, 5])
        to_signed_nbit imm16 12) = RustM.ok (immCJ w.toNat) := by
  refine (set1 w 12 2 [11, 4, 9, 8, 10, 6, 7, 3, 2, 1, 5] (fld w.toNat 12 12 * 2 ^ 11 + fld w.toNat 11 11 * 2 ^ 4 + fld w.toNat 10 9 * 2 ^ 8
    + fld w.toNat 8 8 * 2 ^ 10 + fld w.toNat 7 7 * 2 ^ 6 + fld w.toNat 6 6 * 2 ^ 7
    + fld w.toNat 5 3 * 2 + fld w.toNat 2 2 * 2 ^ 5)
    (fun x => to_signed_nbit (asI32 x) 12) (by decide) (by decide) (by bits; omega)).trans ?_
  have := fld_lt w.toNat 12 12
  have := fld_lt w.toNat 11 11
  have := fld_lt w.toNat 10 9
  have := fld_lt w.toNat 8 8
  have := fld_lt w.toNat 7 7
  have := fld_lt w.toNat 6 6
  have := fld_lt w.toNat 5 3
  have := fld_lt w.toNat 2 2
  exact to_signed_nbit_small _ 12 (by decide) (by decide) (by omega)

theorem c_immCB (w : BitVec 16) :
    (do let imm16 := asI32 ((← U16.set (← U16.slice w 6 2) [7, 6, 2, 1, 5])
          ||| (← U16.set (← U16.slice w 12 10) [8, 4, 3]))
        to_signed_nbit imm16 9) = RustM.ok (immCB w.toNat) := by
  refine (set2 w 6 2 [7, 6, 2, 1, 5] 12 10 [8, 4, 3] (fld w.toNat 12 12 * 2 ^ 8 + fld w.toNat 11 10 * 2 ^ 3 + fld w.toNat 6 5 * 2 ^ 6
    + fld w.toNat 4 3 * 2 + fld w.toNat 2 2 * 2 ^ 5)
    (fun x => to_signed_nbit (asI32 x) 9) (by decide) (by decide) (by decide) (by decide) (by decide) (by bits; omega)).trans ?_
  have := fld_lt w.toNat 12 12
  have := fld_lt w.toNat 11 10
  have := fld_lt w.toNat 6 5
  have := fld_lt w.toNat 4 3
  have := fld_lt w.toNat 2 2
  exact to_signed_nbit_small _ 9 (by decide) (by decide) (by omega)

theorem c_imm16sp (w : BitVec 16) :
    (do let imm16 := asI32 ((← U16.set (← U16.slice w 6 2) [4, 6, 8, 7, 5])
          ||| (← U16.set (← U16.slice w 12 12) [9]))
        to_signed_nbit imm16 10) = RustM.ok (imm16sp w.toNat) := by
  refine (set2 w 6 2 [4, 6, 8, 7, 5] 12 12 [9] (fld w.toNat 12 12 * 2 ^ 9 + fld w.toNat 6 6 * 2 ^ 4 + fld w.toNat 5 5 * 2 ^ 6
    + fld w.toNat 4 3 * 2 ^ 7 + fld w.toNat 2 2 * 2 ^ 5)
    (fun x => to_signed_nbit (asI32 x) 10) (by decide) (by decide) (by decide) (by decide) (by decide) (by bits; omega)).trans ?_
  have := fld_lt w.toNat 12 12
  have := fld_lt w.toNat 6 6
  have := fld_lt w.toNat 5 5
  have := fld_lt w.toNat 4 3
  have := fld_lt w.toNat 2 2
  exact to_signed_nbit_small _ 10 (by decide) (by decide) (by omega)

theorem c_immCLui (w : BitVec 16) :
    (do let imm16 := asI32 ((← U16.set (← U16.slice w 6 2) [16, 15, 14, 13, 12])
          ||| (← U16.set (← U16.slice w 12 12) [17]))
        to_signed_nbit imm16 18) = RustM.ok (immCLui w.toNat) := by
  refine (set2 w 6 2 [16, 15, 14, 13, 12] 12 12 [17] (fld w.toNat 12 12 * 2 ^ 17 + fld w.toNat 6 2 * 2 ^ 12)
    (fun x => to_signed_nbit (asI32 x) 18) (by decide) (by decide) (by decide) (by decide) (by decide) (by bits; omega)).trans ?_
  have := fld_lt w.toNat 12 12
  have := fld_lt w.toNat 6 2
  exact to_signed_nbit_small _ 18 (by decide) (by decide) (by omega)

theorem c_immCIi (w : BitVec 16) :
    (do RustM.ok (asI32 ((← U16.set (← U16.slice w 6 2) [4, 3, 2, 1, 0])
          ||| (← U16.set (← U16.slice w 12 12) [5])))) = RustM.ok ((uimmCI w.toNat : Nat) : Int) := by
  refine (set2 w 6 2 [4, 3, 2, 1, 0] 12 12 [5] (uimmCI w.toNat)
    (fun x => RustM.ok (asI32 x)) (by decide) (by decide) (by decide) (by decide) (by decide) (by unfold uimmCI; bits; omega)).trans ?_
  show RustM.ok (asI32 _) = _
  have := uimmCI_lt w.toNat
  rw [asI32_ofNat _ (by omega)]

theorem c_immLwsp (w : BitVec 16) :
    (do RustM.ok (asI32 ((← U16.set (← U16.slice w 6 2) [4, 3, 2, 7, 6])
          ||| (← U16.set (← U16.slice w 12 12) [5])))) = RustM.ok ((uimmLwsp w.toNat : Nat) : Int) := by
  refine (set2 w 6 2 [4, 3, 2, 7, 6] 12 12 [5] (uimmLwsp w.toNat)
    (fun x => RustM.ok (asI32 x)) (by decide) (by decide) (by decide) (by decide) (by decide) (by unfold uimmLwsp; bits; omega)).trans ?_
  show RustM.ok (asI32 _) = _
  have := uimmLwsp_lt w.toNat
  rw [asI32_ofNat _ (by omega)]

theorem c_immLdsp (w : BitVec 16) :
    (do RustM.ok (asI32 ((← U16.set (← U16.slice w 6 2) [4, 3, 8, 7, 6])
          ||| (← U16.set (← U16.slice w 12 12) [5])))) = RustM.ok ((uimmLdsp w.toNat : Nat) : Int) := by
  refine (set2 w 6 2 [4, 3, 8, 7, 6] 12 12 [5] (uimmLdsp w.toNat)
    (fun x => RustM.ok (asI32 x)) (by decide) (by decide) (by decide) (by decide) (by decide) (by unfold uimmLdsp; bits; omega)).trans ?_
  show RustM.ok (asI32 _) = _
  have := uimmLdsp_lt w.toNat
  rw [asI32_ofNat _ (by omega)]

theorem c_immSwsp (w : BitVec 16) :
    (do RustM.ok (asI32 (← U16.set (← U16.slice w 12 7) [5, 4, 3, 2, 7, 6]))) = RustM.ok ((uimmSwsp w.toNat : Nat) : Int) := by
  refine (set1 w 12 7 [5, 4, 3, 2, 7, 6] (uimmSwsp w.toNat)
    (fun x => RustM.ok (asI32 x)) (by decide) (by decide) (by unfold uimmSwsp; bits; omega)).trans ?_
  show RustM.ok (asI32 _) = _
  have := uimmSwsp_lt w.toNat
  rw [asI32_ofNat _ (by omega)]

theorem c_immSdsp (w : BitVec 16) :
    (do RustM.ok (asI32 (← U16.set (← U16.slice w 12 7) [5, 4, 3, 8, 7, 6]))) = RustM.ok ((uimmSdsp w.toNat : Nat) : Int) := by
  refine (set1 w 12 7 [5, 4, 3, 8, 7, 6] (uimmSdsp w.toNat)
    (fun x => RustM.ok (asI32 x)) (by decide) (by decide) (by unfold uimmSdsp; bits; omega)).trans ?_
  show RustM.ok (asI32 _) = _
  have := uimmSdsp_lt w.toNat
  rw [asI32_ofNat _ (by omega)]

theorem parse_imm16_C (w : BitVec 16) (o : COpcode) :
    C.parse_imm w o = .ok (imm16 w.toNat (.C o)) := by
  have b1 := uimmW_lt w.toNat
  have b2 := uimmD_lt w.toNat
  have b3 := uimmCIW_lt w.toNat
  have b4 := uimmCI_lt w.toNat
  unfold C.parse_imm
  simp only [c_immW w, c_immD w, c_immCIW w, c_immCI w, c_immCIs w, c_immCJ w, c_immCB w, c_imm16sp w, c_immCLui w, c_immCIi w, c_immLwsp w, c_immLdsp w, c_immSwsp w, c_immSdsp w]
  have e1 := asI32_ofNat (uimmW w.toNat) (by omega)
  have e2 := asI32_ofNat (uimmD w.toNat) (by omega)
  have e3 := asI32_ofNat (uimmCIW w.toNat) (by omega)
  have e4 := asI32_ofNat (uimmCI w.toNat) (by omega)
  cases o <;> simp only [RustM.bind_ok, e1, e2, e3, e4, imm16]

/-- A compressed opcode. -/
def isC : OpcodeKind → Prop
  | .C _ => True
  | .Zicfiss .C_SSPUSH => True
  | .Zicfiss .C_SSPOPCHK => True
  | _ => False

theorem accepts16_isC (isa : Isa) (h : Nat) (op : OpcodeKind) (ha : accepts16 isa h op) : isC op := by
  rcases op with o | o | o | o | o | o | o | o | o | o
  case C => trivial
  case Zicfiss => cases o <;> simp_all [accepts16, official16, isC]
  all_goals simp [accepts16, official16] at ha

theorem getFormat16_eq (op : OpcodeKind) (h : isC op) : op.getFormat = instFormat16 op := by
  rcases op with o | o | o | o | o | o | o | o | o | o <;> cases o
  all_goals first
    | rfl
    | exact h.elim

theorem parse_rd16_eq (w : BitVec 16) (op : OpcodeKind) (h : isC op) :
    U16.parse_rd w op = .ok (rd16 w.toNat op) := by
  rcases op with o | o | o | o | o | o | o | o | o | o
  case C => exact parse_rd16_C w o
  case Zicfiss => cases o <;> first | rfl | exact h.elim
  all_goals exact h.elim

theorem parse_rs116_eq (w : BitVec 16) (op : OpcodeKind) (h : isC op) :
    U16.parse_rs1 w op = .ok (rs116 w.toNat op) := by
  rcases op with o | o | o | o | o | o | o | o | o | o
  case C => exact parse_rs116_C w o
  case Zicfiss => cases o <;> first | rfl | exact h.elim
  all_goals exact h.elim

theorem parse_rs216_eq (w : BitVec 16) (op : OpcodeKind) (h : isC op) :
    U16.parse_rs2 w op = .ok (rs216 w.toNat op) := by
  rcases op with o | o | o | o | o | o | o | o | o | o
  case C => exact parse_rs216_C w o
  case Zicfiss => cases o <;> first | rfl | exact h.elim
  all_goals exact h.elim

theorem parse_imm16_eq (w : BitVec 16) (isa : Isa) (op : OpcodeKind) (h : isC op) :
    U16.parse_imm w op isa = .ok (imm16 w.toNat op) := by
  rcases op with o | o | o | o | o | o | o | o | o | o
  case C => exact parse_imm16_C w o
  case Zicfiss => cases o <;> first | rfl | exact h.elim
  all_goals exact h.elim

theorem decode16_of_opcode (w : BitVec 16) (isa : Isa) (op : OpcodeKind) (h0 : w.toNat ≠ 0)
    (h : U16.parse_opcode w isa = .ok op) (hc : isC op) :
    U16.decode w isa = .ok (value16 w.toNat op) := by
  unfold U16.decode
  rw [if_neg h0, h, RustM.bind_ok, parse_rd16_eq w op hc, RustM.bind_ok, parse_rs116_eq w op hc,
    RustM.bind_ok, parse_rs216_eq w op hc, RustM.bind_ok, parse_imm16_eq w isa op hc,
    RustM.bind_ok, getFormat16_eq op hc]
  rfl

theorem accepts16_ne_zero (isa : Isa) (h : Nat) (op : OpcodeKind) (ha : accepts16 isa h op) :
    h ≠ 0 := by
  rintro rfl
  exact accepts16_rejects16 isa 0 op .IllegalInstruction ha rfl

/-- What `decode` returns, in terms of the specification. -/
theorem decode16_ok_iff (w : BitVec 16) (isa : Isa) (i : Instruction) :
    U16.decode w isa = .ok i ↔ accepts16 isa w.toNat i.opc ∧ i = value16 w.toNat i.opc := by
  constructor
  · intro h
    have h0 : w.toNat ≠ 0 := by
      intro h0; simp [U16.decode, h0] at h
    cases hop : U16.parse_opcode w isa with
    | ok op =>
      have ha := (parse_opcode16_ok w isa op h0).1 hop
      rw [decode16_of_opcode w isa op h0 hop (accepts16_isC _ _ _ ha)] at h
      injection h with h
      subst h
      exact ⟨ha, rfl⟩
    | err e => simp [U16.decode, hop, h0] at h
    | panic => simp [U16.decode, hop, h0] at h
  · rintro ⟨ha, hi⟩
    rw [decode16_of_opcode w isa i.opc (accepts16_ne_zero _ _ _ ha) (acc16 w isa i.opc ha)
      (accepts16_isC _ _ _ ha), ← hi]

theorem decode16_accepts (w : BitVec 16) (isa : Isa) (op : OpcodeKind) :
    (∃ i, U16.decode w isa = .ok i ∧ i.opc = op) ↔ accepts16 isa w.toNat op := by
  constructor
  · rintro ⟨i, h, rfl⟩
    exact ((decode16_ok_iff w isa i).1 h).1
  · intro h
    exact ⟨value16 w.toNat op, (decode16_ok_iff w isa _).2 ⟨h, rfl⟩, rfl⟩

theorem decode16_out (w : BitVec 16) (isa : Isa) :
    (∃ i, U16.decode w isa = .ok i) ∨ (∃ e, U16.decode w isa = .err e ∧ rejects16 isa w.toNat e) := by
  by_cases h0 : w.toNat = 0
  · exact .inr ⟨.IllegalInstruction, by simp [U16.decode, h0], h0⟩
  have ho := out16 w isa h0
  cases hop : U16.parse_opcode w isa with
  | ok op =>
    rw [hop] at ho
    exact .inl ⟨_, decode16_of_opcode w isa op h0 hop (accepts16_isC _ _ _ ho)⟩
  | err e =>
    rw [hop] at ho
    exact .inr ⟨e, by simp [U16.decode, hop, h0], ho⟩
  | panic => rw [hop] at ho; exact ho.elim

theorem rejects16_unique (isa : Isa) (h : Nat) (e e' : DecodingError)
    (h1 : rejects16 isa h e) (h2 : rejects16 isa h e') : e = e' := by
  cases e <;> cases e' <;> first
    | rfl
    | exact h1.elim
    | exact h2.elim
    | (exfalso; simp only [rejects16, quad] at h1 h2; simp_all [fld]; done)
    | (exfalso; simp only [rejects16, quad] at h1 h2; omega)

theorem decode16_err_iff (w : BitVec 16) (isa : Isa) (e : DecodingError) :
    U16.decode w isa = .err e ↔ rejects16 isa w.toNat e := by
  constructor
  · intro h
    rcases decode16_out w isa with ⟨i, hi⟩ | ⟨e', he', hr⟩
    · rw [hi] at h; simp at h
    · rw [he'] at h; injection h with h; exact h ▸ hr
  · intro h
    rcases decode16_out w isa with ⟨i, hi⟩ | ⟨e', he', hr⟩
    · exact (accepts16_rejects16 _ _ _ _ ((decode16_ok_iff w isa i).1 hi).1 h).elim
    · rw [he', rejects16_unique _ _ _ _ hr h]

theorem decode16_no_panic (w : BitVec 16) (isa : Isa) : U16.decode w isa ≠ .panic := by
  rcases decode16_out w isa with ⟨i, hi⟩ | ⟨e', he', hr⟩
  · rw [hi]; simp
  · rw [he']; simp

end Raki
