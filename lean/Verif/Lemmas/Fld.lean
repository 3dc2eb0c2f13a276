import Verif.Model.DecodeUtil
import Verif.Spec.Bits
/-!
# The decoding helpers compute bit fields
-/

namespace Raki

open Spec

@[simp] theorem RustM.bind_ok {α β : Type} (a : α) (f : α → RustM β) :
    (RustM.ok a >>= f) = f a := rfl
@[simp] theorem RustM.bind_err {α β : Type} (e : DecodingError) (f : α → RustM β) :
    ((RustM.err e : RustM α) >>= f) = RustM.err e := rfl
@[simp] theorem RustM.bind_panic {α β : Type} (f : α → RustM β) :
    ((RustM.panic : RustM α) >>= f) = RustM.panic := rfl
@[simp] theorem RustM.pure_eq {α : Type} (a : α) : (pure a : RustM α) = RustM.ok a := rfl

theorem RustM.bind_eq_ok {α β : Type} {x : RustM α} {f : α → RustM β} {b : β} :
    (x >>= f) = .ok b ↔ ∃ a, x = .ok a ∧ f a = .ok b := by
  cases x <;> simp

theorem RustM.bind_eq_err {α β : Type} {x : RustM α} {f : α → RustM β} {e : DecodingError} :
    (x >>= f) = .err e ↔ x = .err e ∨ ∃ a, x = .ok a ∧ f a = .err e := by
  cases x <;> simp

theorem RustM.bind_eq_panic {α β : Type} {x : RustM α} {f : α → RustM β} :
    (x >>= f) = .panic ↔ x = .panic ∨ ∃ a, x = .ok a ∧ f a = .panic := by
  cases x <;> simp

theorem fld_lt (w hi lo : Nat) : fld w hi lo < 2 ^ (hi + 1 - lo) :=
  Nat.mod_lt _ (Nat.two_pow_pos _)

theorem fld_le (w hi lo : Nat) : fld w hi lo ≤ w :=
  Nat.le_trans (Nat.mod_le _ _) (Nat.div_le_self _ _)

theorem bit_lt (w k : Nat) : bit w k < 2 := Nat.mod_lt _ (by decide)

theorem slice_gen {n : Nat} (w : BitVec n) (e s : Nat) (h1 : s ≤ e) (h2 : e - s + 1 < n) (h3 : s < n) :
    (do rAssert (decide (e ≥ s))
        let a ← shrU w s
        let d ← subNat e s
        let p ← powU n 2 (d + 1)
        let m ← subU p 1
        RustM.ok (a &&& m)) = .ok (BitVec.ofNat n (fld w.toNat e s)) := by
  have hp : 2 ^ (e - s + 1) < 2 ^ n := Nat.pow_lt_pow_right (by decide) h2
  have h1n : 1 < 2 ^ n := Nat.one_lt_two_pow (by omega)
  have hpos : 1 ≤ 2 ^ (e - s + 1) := Nat.two_pow_pos _
  simp only [rAssert, ge_iff_le, h1, decide_true, if_true, shrU, h3, subNat, powU, hp, subU,
    RustM.bind_ok]
  have hone : (1#n).toNat = 1 := by simp [Nat.mod_eq_of_lt h1n]
  have hpn : (BitVec.ofNat n (2 ^ (e - s + 1))).toNat = 2 ^ (e - s + 1) := by
    simp [Nat.mod_eq_of_lt hp]
  rw [if_pos (by rw [hpn]; simpa [Nat.mod_eq_of_lt h1n] using hpos)]
  simp only [RustM.bind_ok]
  congr 1
  apply BitVec.eq_of_toNat_eq
  have hsub : (BitVec.ofNat n (2 ^ (e - s + 1)) - 1#n).toNat = 2 ^ (e - s + 1) - 1 := by
    rw [BitVec.toNat_sub, hpn, hone]
    have : 2 ^ n - 1 + 2 ^ (e - s + 1) = 2 ^ n + (2 ^ (e - s + 1) - 1) := by omega
    rw [this, Nat.add_mod_left, Nat.mod_eq_of_lt (by omega)]
  have hs : e + 1 - s = e - s + 1 := by omega
  show (w >>> s &&& (BitVec.ofNat n (2 ^ (e - s + 1)) - 1#n)).toNat = _
  rw [BitVec.toNat_and, hsub, BitVec.toNat_ushiftRight, Nat.and_two_pow_sub_one_eq_mod,
    BitVec.toNat_ofNat, Nat.mod_eq_of_lt (Nat.lt_of_le_of_lt (fld_le _ _ _) w.isLt),
    Nat.shiftRight_eq_div_pow, fld, hs]

/-- `slice` on a `u32` extracts the field (any proper sub-range). -/
theorem U32.slice_eq (w : BitVec 32) (e s : Nat) (h1 : s ≤ e) (h2 : e - s + 1 < 32) (h3 : s < 32) :
    U32.slice w e s = .ok (BitVec.ofNat 32 (fld w.toNat e s)) := slice_gen w e s h1 h2 h3

/-- `slice` on a `u16` extracts the field (any proper sub-range). -/
theorem U16.slice_eq (w : BitVec 16) (e s : Nat) (h1 : s ≤ e) (h2 : e - s + 1 < 16) (h3 : s < 16) :
    U16.slice w e s = .ok (BitVec.ofNat 16 (fld w.toNat e s)) := slice_gen w e s h1 h2 h3

theorem toNat_ofNat_fld32 (w : BitVec 32) (e s : Nat) :
    (BitVec.ofNat 32 (fld w.toNat e s)).toNat = fld w.toNat e s := by
  rw [BitVec.toNat_ofNat, Nat.mod_eq_of_lt (Nat.lt_of_le_of_lt (fld_le _ _ _) w.isLt)]

theorem toNat_ofNat_fld16 (w : BitVec 16) (e s : Nat) :
    (BitVec.ofNat 16 (fld w.toNat e s)).toNat = fld w.toNat e s := by
  rw [BitVec.toNat_ofNat, Nat.mod_eq_of_lt (Nat.lt_of_le_of_lt (fld_le _ _ _) w.isLt)]

theorem tryU8_fld (w e s : Nat) (h : e + 1 - s ≤ 8) : tryU8 (fld w e s) = .ok (fld w e s) := by
  have := fld_lt w e s
  have h2 : 2 ^ (e + 1 - s) ≤ 2 ^ 8 := Nat.pow_le_pow_right (by decide) h
  simp [tryU8]; omega

theorem tryU16_fld (w e s : Nat) (h : e + 1 - s ≤ 16) : tryU16 (fld w e s) = .ok (fld w e s) := by
  have := fld_lt w e s
  have h2 : 2 ^ (e + 1 - s) ≤ 2 ^ 16 := Nat.pow_le_pow_right (by decide) h
  simp [tryU16]; omega

end Raki
