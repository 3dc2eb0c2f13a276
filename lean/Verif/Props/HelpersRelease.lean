import Verif.Props.Helpers
import Verif.Lemmas.Release
/-!
# The bit helpers without overflow checks (C64)
-/

namespace Raki

open Spec

/-! ## `slice` -/

/-- The mask of `slice`, whatever the exponent. -/
theorem mask_and {n : Nat} (x : BitVec n) (k : Nat) :
    (x &&& (BitVec.ofNat n (2 ^ k) - 1)).toNat = x.toNat % 2 ^ k := by
  by_cases hn : n = 0
  · subst hn
    have : x.toNat = 0 := by have := x.isLt; omega
    simp [this]
  by_cases h : k < n
  · have hk : 2 ^ k < 2 ^ n := Nat.pow_lt_pow_right (by decide) h
    have h1 : 1 < 2 ^ n := Nat.one_lt_two_pow hn
    have : (BitVec.ofNat n (2 ^ k) - 1).toNat = 2 ^ k - 1 := by
      have hp := Nat.two_pow_pos k
      rw [BitVec.toNat_sub, BitVec.toNat_ofNat, Nat.mod_eq_of_lt hk]
      have : (1 : BitVec n).toNat = 1 := by
        show (BitVec.ofNat n 1).toNat = 1
        rw [BitVec.toNat_ofNat, Nat.mod_eq_of_lt h1]
      rw [this, show 2 ^ n - 1 + 2 ^ k = 2 ^ k - 1 + 2 ^ n by omega, Nat.add_mod_right,
        Nat.mod_eq_of_lt (by omega)]
    rw [BitVec.toNat_and, this, Nat.and_two_pow_sub_one_eq_mod]
  · have h0 : BitVec.ofNat n (2 ^ k) = 0 := by
      apply BitVec.eq_of_toNat_eq
      rw [BitVec.toNat_ofNat]
      exact Nat.mod_eq_zero_of_dvd (Nat.pow_dvd_pow 2 (by omega))
    have h1 : (0 : BitVec n) - 1 = BitVec.allOnes n := by
      apply BitVec.eq_of_toNat_eq
      have h1 : 1 < 2 ^ n := Nat.one_lt_two_pow hn
      have : (1 : BitVec n).toNat = 1 := by
        show (BitVec.ofNat n 1).toNat = 1
        rw [BitVec.toNat_ofNat, Nat.mod_eq_of_lt h1]
      rw [BitVec.toNat_sub, this, BitVec.toNat_allOnes]
      simp
    rw [h0, h1, BitVec.and_allOnes, Nat.mod_eq_of_lt]
    exact Nat.lt_of_lt_of_le x.isLt (Nat.pow_le_pow_right (by decide) (by omega))

theorem slice_release {n : Nat} (w : BitVec n) (e s : Nat) (he : e < 2 ^ 32) :
    (do rAssert (decide (e ≥ s))
        let a ← Release.shrU w s
        let d ← Release.subNat e s
        let p ← Release.powU n 2 ((d + 1) % 2 ^ 32)
        let m ← Release.subU p 1
        RustM.ok (a &&& m)) =
    if s ≤ e then .ok (BitVec.ofNat n (w.toNat / 2 ^ (s % n) % 2 ^ ((e - s + 1) % 2 ^ 32))) else .panic := by
  by_cases h : s ≤ e
  · have hd : (e + 2 ^ 32 - s) % 2 ^ 32 = e - s := by omega
    simp only [rAssert, Release.shrU, Release.subNat, Release.powU, Release.subU, ge_iff_le, h, decide_true,
      if_true, RustM.bind_ok, hd]
    congr 1
    apply BitVec.eq_of_toNat_eq
    rw [mask_and, BitVec.toNat_ushiftRight, Nat.shiftRight_eq_div_pow, BitVec.toNat_ofNat]
    refine (Nat.mod_eq_of_lt ?_).symm
    exact Nat.lt_of_le_of_lt (Nat.mod_le _ _) (Nat.lt_of_le_of_lt (Nat.div_le_self _ _) w.isLt)
  · simp [rAssert, h]

/-- C64.  `slice` on a `u32` without overflow checks: it panics only if the range is empty, the start is taken
modulo 32, and the width modulo 2^32. -/
theorem C64_slice32 (w : BitVec 32) (e s : Nat) (he : e < 2 ^ 32) :
    if s ≤ e
    then ∃ r, Release.U32.slice w e s = .ok r ∧
      r.toNat = w.toNat / 2 ^ (s % 32) % 2 ^ ((e - s + 1) % 2 ^ 32)
    else Release.U32.slice w e s = .panic := by
  have := slice_release w e s he
  split
  · rename_i h
    refine ⟨_, by rw [if_pos h] at this; exact this, ?_⟩
    rw [BitVec.toNat_ofNat, Nat.mod_eq_of_lt]
    exact Nat.lt_of_le_of_lt (Nat.mod_le _ _) (Nat.lt_of_le_of_lt (Nat.div_le_self _ _) w.isLt)
  · rename_i h
    rw [if_neg h] at this; exact this

/-- C64.  `slice` on a `u16`. -/
theorem C64_slice16 (w : BitVec 16) (e s : Nat) (he : e < 2 ^ 32) :
    if s ≤ e
    then ∃ r, Release.U16.slice w e s = .ok r ∧
      r.toNat = w.toNat / 2 ^ (s % 16) % 2 ^ ((e - s + 1) % 2 ^ 32)
    else Release.U16.slice w e s = .panic := by
  have := slice_release w e s he
  split
  · rename_i h
    refine ⟨_, by rw [if_pos h] at this; exact this, ?_⟩
    rw [BitVec.toNat_ofNat, Nat.mod_eq_of_lt]
    exact Nat.lt_of_le_of_lt (Nat.mod_le _ _) (Nat.lt_of_le_of_lt (Nat.div_le_self _ _) w.isLt)
  · rename_i h
    rw [if_neg h] at this; exact this

example : Release.U32.slice 0xdeadbeef 31 0 = .ok 0xdeadbeef := by decide
example : Release.U16.slice 0xbeef 20 17 = .ok 0x7 := by decide

/-! ## `set` -/

theorem setLoop_release (x : BitVec 32) (ms : List Nat) (i : Nat) (acc : BitVec 32) :
    ∃ r, Release.setLoop x ms i acc = .ok r ∧
      ∀ k, r.getLsbD k = true ↔ acc.getLsbD k = true ∨
        ∃ a m b, ms = a ++ m :: b ∧ m % 32 = k ∧ x.getLsbD ((i + a.length) % 32) = true := by
  induction ms generalizing i acc with
  | nil => exact ⟨acc, rfl, fun k => by simp⟩
  | cons m ms ih =>
    obtain ⟨r, hr, hk⟩ := ih (i + 1) (acc ||| (x >>> (i % 32) &&& 1#32) <<< (m % 32))
    refine ⟨r, hr, fun k => ?_⟩
    have hm : m % 32 < 32 := Nat.mod_lt _ (by decide)
    have hb : ((x >>> (i % 32) &&& 1#32) <<< (m % 32)).getLsbD k
        = (decide (k = m % 32) && x.getLsbD (i % 32)) := by
      generalize m % 32 = j at hm
      simp only [BitVec.getLsbD_shiftLeft, BitVec.getLsbD_and, BitVec.getLsbD_ushiftRight,
        BitVec.getLsbD_one]
      by_cases hk : k = j
      · subst hk; simp [hm]
      · by_cases hlt : k < j
        · simp [hlt, hk]
        · have : k - j ≠ 0 := by omega
          simp [hk, this]
    rw [hk, BitVec.getLsbD_or, hb, Bool.or_eq_true, Bool.and_eq_true, decide_eq_true_eq, or_assoc]
    refine or_congr Iff.rfl ?_
    constructor
    · rintro (⟨rfl, h⟩ | ⟨a, m', b, rfl, e, h⟩)
      · exact ⟨[], m, ms, rfl, rfl, h⟩
      · exact ⟨m :: a, m', b, rfl, e, by
          rw [List.length_cons, ← Nat.add_assoc, Nat.add_right_comm]; exact h⟩
    · rintro ⟨a, m', b, e, e', h⟩
      cases a with
      | nil => simp at e; obtain ⟨rfl, rfl⟩ := e; exact .inl ⟨e'.symm, h⟩
      | cons c a =>
          simp at e
          obtain ⟨rfl, rfl⟩ := e
          refine .inr ⟨a, m', b, rfl, e', ?_⟩
          rw [List.length_cons, ← Nat.add_assoc, Nat.add_right_comm] at h
          exact h

theorem set_release (x : BitVec 32) (mask : List Nat) :
    ∃ r, Release.setLoop x mask.reverse 0 0 = .ok r ∧ ∀ k, r.toNat / 2 ^ k % 2 = 1 ↔
      ∃ a m b, mask = a ++ m :: b ∧ m % 32 = k ∧ x.toNat / 2 ^ (b.length % 32) % 2 = 1 := by
  obtain ⟨r, hr, hk⟩ := setLoop_release x mask.reverse 0 0
  refine ⟨r, hr, fun k => ?_⟩
  rw [testBit_iff, hk]
  simp only [BitVec.ofNat_eq_ofNat, BitVec.getLsbD_zero, Bool.false_eq_true, false_or, Nat.zero_add]
  constructor
  · rintro ⟨a, m, b, e, e', h⟩
    refine ⟨b.reverse, m, a.reverse, ?_, e', ?_⟩
    · have := congrArg List.reverse e
      simpa using this
    · rw [testBit_iff, List.length_reverse]; exact h
  · rintro ⟨a, m, b, rfl, e', hb⟩
    refine ⟨b.reverse, m, a.reverse, by simp, e', ?_⟩
    rw [testBit_iff] at hb
    rw [List.length_reverse]; exact hb

/-- C64.  `set` on a `u32` without overflow checks never panics; positions and places are taken modulo 32. -/
theorem C64_set32 (w : BitVec 32) (mask : List Nat) :
    ∃ r, Release.U32.set w mask = .ok r ∧ ∀ k, r.toNat / 2 ^ k % 2 = 1 ↔
      ∃ a m b, mask = a ++ m :: b ∧ m % 32 = k ∧ w.toNat / 2 ^ (b.length % 32) % 2 = 1 :=
  set_release w mask

/-- C64.  `set` on a `u16`. -/
theorem C64_set16 (w : BitVec 16) (mask : List Nat) :
    ∃ r, Release.U16.set w mask = .ok r ∧ ∀ k, r.toNat / 2 ^ k % 2 = 1 ↔
      ∃ a m b, mask = a ++ m :: b ∧ m % 32 = k ∧ w.toNat / 2 ^ (b.length % 32) % 2 = 1 := by
  have h := set_release (w.setWidth 32) mask
  rw [BitVec.toNat_setWidth, Nat.mod_eq_of_lt (by have := w.isLt; omega)] at h
  exact h

example : Release.U32.set 0b101 [36, 9, 2] = .ok 0b10100 := by decide

/-! ## `to_signed_nbit` -/

theorem wrap_id (x : Int) (hx : -2 ^ 31 ≤ x ∧ x < 2 ^ 31) : (BitVec.ofInt 32 x).toInt = x := by
  rw [BitVec.toInt_ofInt, Int.bmod_eq_of_le] <;> omega

theorem andI32_ones (x : Int) (hx : -2 ^ 31 ≤ x ∧ x < 2 ^ 31) : andI32 x (-1) = x := by
  have : BitVec.ofInt 32 (-1) = BitVec.allOnes 32 := by decide
  rw [andI32, this, BitVec.and_allOnes, wrap_id x hx]

theorem to_signed_wide (x : Int) (n : Nat) (hx : -2 ^ 31 ≤ x ∧ x < 2 ^ 31) (hn : 32 ≤ n) :
    Release.to_signed_nbit x n = .ok x := by
  have hp : Release.chkI32 (2 ^ n) = .ok 0 := by
    obtain ⟨m, rfl⟩ : ∃ m, n = 32 + m := ⟨n - 32, by omega⟩
    have : BitVec.ofInt 32 (2 ^ (32 + m)) = 0 := by
      apply BitVec.eq_of_toNat_eq
      rw [BitVec.toNat_ofInt, Int.pow_add]
      simp
    rw [Release.chkI32, this]; rfl
  have hm : Release.chkI32 (0 - 1) = .ok (-1) := by decide
  have hz : Release.chkI32 (x - 0) = .ok x := by rw [Int.sub_zero, Release.chkI32, wrap_id x hx]
  unfold Release.to_signed_nbit
  rw [hp, RustM.bind_ok, hm, RustM.bind_ok]
  simp only [andI32_ones x hx, Release.subNat, Release.sarI32, RustM.bind_ok, hz, ite_self]

theorem to_signed_31 (x : Int) :
    Release.to_signed_nbit x 31 = .ok (if x % 2 ^ 31 < 2 ^ 30 then x % 2 ^ 31 else x % 2 ^ 31 - 2 ^ 31) := by
  have hp : Release.chkI32 (2 ^ 31) = .ok (-2 ^ 31) := by decide
  have hm : Release.chkI32 (-2 ^ 31 - 1) = .ok (2 ^ 31 - 1) := by decide
  have hk : Release.subNat 31 1 = .ok 30 := rfl
  have ha : andI32 x (2 ^ 31 - 1) = x % 2 ^ 31 := by
    have : BitVec.ofInt 32 (2 ^ 31 - 1) = BitVec.ofNat 32 (2 ^ 31) - 1 := by decide
    have h2 := mask_and (BitVec.ofInt 32 x) 31
    rw [andI32, this, BitVec.toInt_eq_toNat_cond, h2, BitVec.toNat_ofInt]
    split <;> omega
  unfold Release.to_signed_nbit
  rw [hp, RustM.bind_ok, hm, RustM.bind_ok, hk]
  simp only [ha, RustM.bind_ok, Release.sarI32]
  have h0 : 0 ≤ x % 2 ^ 31 := Int.emod_nonneg _ (by decide)
  have h1 : x % 2 ^ 31 < 2 ^ 31 := Int.emod_lt_of_pos _ (by decide)
  generalize x % 2 ^ 31 = y at h0 h1
  have hs : ((BitVec.ofInt 32 y).sshiftRight (30 % 32)).toInt = y / 2 ^ 30 := by
    rw [BitVec.toInt_sshiftRight, wrap_id y (by omega), Int.shiftRight_eq_div_pow]
    rfl
  rw [hs]
  by_cases hy : y < 2 ^ 30
  · rw [if_pos hy, show y / 2 ^ 30 = 0 by omega, if_neg (by decide)]
  · rw [if_neg hy, show y / 2 ^ 30 = 1 by omega, if_pos (by decide), Release.chkI32]
    congr 1
    rw [BitVec.toInt_ofInt, Int.bmod_def]
    split <;> omega

/-- C64.  `to_signed_nbit` without overflow checks is right for 1 to 32 bits, gives 0 for no bits and the
argument for more than 32. -/
theorem C64_to_signed_nbit (x : Int) (n : Nat) (hx : -2 ^ 31 ≤ x ∧ x < 2 ^ 31) :
    ∃ z, Release.to_signed_nbit x n = .ok z ∧
      (n = 0 → z = 0) ∧
      (1 ≤ n ∧ n ≤ 32 → -2 ^ (n - 1) ≤ z ∧ z < 2 ^ (n - 1) ∧ z % 2 ^ n = x % 2 ^ n) ∧
      (33 ≤ n → z = x) := by
  by_cases h0 : n = 0
  · subst h0
    refine ⟨0, ?_, by simp, by omega, by omega⟩
    have ha : andI32 x 0 = 0 := by
      have : BitVec.ofInt 32 0 = 0 := by decide
      rw [andI32, this]; simp
    unfold Release.to_signed_nbit
    rw [show Release.chkI32 (2 ^ 0) = .ok 1 by decide, RustM.bind_ok,
      show Release.chkI32 (1 - 1) = .ok 0 by decide, RustM.bind_ok]
    simp only [ha]
    rfl
  by_cases h30 : n ≤ 30
  · obtain ⟨z, hz, h1, h2, h3⟩ := C59_to_signed_nbit x n (by omega) h30
    refine ⟨z, ?_, by omega, fun _ => ⟨h1, h2, h3⟩, by omega⟩
    rw [← hz]
    exact (to_signed_nbit_refines x n).eq (by rw [hz]; simp)
  by_cases h31 : n = 31
  · subst h31
    refine ⟨_, to_signed_31 x, by omega, fun _ => ?_, by omega⟩
    simp only [Nat.add_one_sub_one]
    split <;> omega
  · refine ⟨x, to_signed_wide x n hx (by omega), by omega, fun h => ?_, fun _ => rfl⟩
    have : n = 32 := by omega
    subst this
    exact ⟨hx.1, hx.2, rfl⟩

example : Release.to_signed_nbit 0x7fffffff 31 = .ok (-1) := by decide

end Raki
