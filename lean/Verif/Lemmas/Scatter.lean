import Verif.Lemmas.Fld
/-!
# Sign extension and bit scattering helpers as arithmetic
-/

namespace Raki

open Spec

/-- `to_signed_nbit` is the two's complement reading of the low `n` bits of the pattern of `x`. -/
theorem to_signed_nbit_eq (x : Int) (n : Nat) (h1 : 1 ≤ n) (h2 : n ≤ 30) :
    to_signed_nbit x n = .ok (sext n ((BitVec.ofInt 32 x).toNat % 2 ^ n)) := by
  obtain ⟨m, rfl⟩ : ∃ m, n = m + 1 := ⟨n - 1, by omega⟩
  have hle : 2 ^ (m + 1) ≤ 2 ^ 30 := Nat.pow_le_pow_right (by decide) h2
  have hpos : 1 ≤ 2 ^ m := Nat.two_pow_pos _
  have hsucc : 2 ^ (m + 1) = 2 * 2 ^ m := by rw [Nat.pow_succ]; omega
  generalize hk : (BitVec.ofInt 32 x).toNat % 2 ^ (m + 1) = k
  have hklt : k < 2 ^ (m + 1) := by rw [← hk]; exact Nat.mod_lt _ (Nat.two_pow_pos _)
  have hc : chkI32 ((2 : Int) ^ (m + 1)) = .ok ((2 ^ (m + 1) : Nat) : Int) := by
    have : ((2 : Int) ^ (m + 1)) = ((2 ^ (m + 1) : Nat) : Int) := by simp
    rw [this]; unfold chkI32; rw [if_pos]; omega
  have hc1 : chkI32 (((2 ^ (m + 1) : Nat) : Int) - 1) = .ok ((2 ^ (m + 1) - 1 : Nat) : Int) := by
    have : (((2 ^ (m + 1) : Nat) : Int) - 1) = ((2 ^ (m + 1) - 1 : Nat) : Int) := by omega
    rw [this]; unfold chkI32; rw [if_pos]; omega
  have hsmall : ∀ j : Nat, j < 2 ^ 31 → (BitVec.ofNat 32 j).toInt = (j : Int) := by
    intro j hj
    rw [BitVec.toInt_eq_toNat_of_lt] <;> rw [BitVec.toNat_ofNat, Nat.mod_eq_of_lt] <;> omega
  have hand : andI32 x ((2 ^ (m + 1) - 1 : Nat) : Int) = (k : Int) := by
    unfold andI32
    have : BitVec.ofInt 32 x &&& BitVec.ofInt 32 ((2 ^ (m + 1) - 1 : Nat) : Int)
        = BitVec.ofNat 32 k := by
      apply BitVec.eq_of_toNat_eq
      rw [BitVec.ofInt_natCast, BitVec.toNat_and, BitVec.toNat_ofNat, BitVec.toNat_ofNat,
        Nat.mod_eq_of_lt (by omega), Nat.and_two_pow_sub_one_eq_mod, hk, Nat.mod_eq_of_lt (by omega)]
    rw [this, hsmall k (by omega)]
  have hsar : sarI32 (k : Int) m = .ok ((k / 2 ^ m : Nat) : Int) := by
    unfold sarI32
    rw [if_pos (by omega), BitVec.ofInt_natCast, BitVec.toInt_sshiftRight, hsmall k (by omega),
      Int.shiftRight_eq_div_pow]
    rfl
  have hd : k / 2 ^ m < 2 := by rw [Nat.div_lt_iff_lt_mul hpos]; omega
  have hand1 : andI32 ((k / 2 ^ m : Nat) : Int) 1 = ((k / 2 ^ m : Nat) : Int) := by
    have : k / 2 ^ m = 0 ∨ k / 2 ^ m = 1 := by
      generalize k / 2 ^ m = q at hd
      omega
    rcases this with h | h <;> rw [h] <;> decide
  simp only [to_signed_nbit, hc, RustM.bind_ok, hc1, hand, subNat, h1, if_true,
    Nat.add_sub_cancel, hsar, hand1, sext]
  by_cases hlt : k < 2 ^ m
  · rw [Nat.div_eq_of_lt hlt]; simp [hlt]
  · have : k / 2 ^ m = 1 := by
      have : 1 ≤ k / 2 ^ m := by rw [Nat.le_div_iff_mul_le hpos]; omega
      omega
    rw [this]
    simp only [hlt, if_false]
    rw [if_pos (by decide)]
    have h3 : (2 : Int) ^ (m + 1) = ((2 ^ (m + 1) : Nat) : Int) := by simp
    rw [h3]; unfold chkI32; rw [if_pos]; omega

theorem asI32_ofNat (k : Nat) (h : k < 2 ^ 31) : asI32 (BitVec.ofNat 32 k) = (k : Int) := by
  unfold asI32
  rw [BitVec.toInt_eq_toNat_of_lt] <;> rw [BitVec.toNat_ofNat, Nat.mod_eq_of_lt] <;> omega

/-- The use made of `to_signed_nbit`: on an in-range unsigned value it is the sign extension. -/
theorem to_signed_nbit_small (k n : Nat) (h1 : 1 ≤ n) (h2 : n ≤ 30) (hk : k < 2 ^ n) :
    to_signed_nbit (asI32 (BitVec.ofNat 32 k)) n = .ok (sext n k) := by
  have hle : 2 ^ n ≤ 2 ^ 30 := Nat.pow_le_pow_right (by decide) h2
  rw [to_signed_nbit_eq _ n h1 h2, asI32_ofNat k (by omega), BitVec.ofInt_natCast,
    BitVec.toNat_ofNat, Nat.mod_eq_of_lt (a := k) (by omega), Nat.mod_eq_of_lt hk]

/-- Sum of the bits of `x` from position `i` up, placed at the listed positions (lowest first). -/
def scatter (x : Nat) : List Nat → Nat → Nat
  | [], _ => 0
  | m :: ms, i => bit x i * 2 ^ m + scatter x ms (i + 1)

theorem setLoop_spec (x : BitVec 32) (ms : List Nat) (i : Nat) (acc : BitVec 32) (hnd : ms.Nodup)
    (hms : ∀ m ∈ ms, m < 32 ∧ acc.getLsbD m = false) (hi : i + ms.length ≤ 32) :
    ∃ r, setLoop x ms i acc = .ok r ∧ r.toNat = acc.toNat + scatter x.toNat ms i ∧
      ∀ k, r.getLsbD k = true → acc.getLsbD k = true ∨ k ∈ ms := by
  induction ms generalizing i acc with
  | nil => exact ⟨acc, rfl, by simp [scatter], fun k h => .inl h⟩
  | cons m ms ih =>
    simp only [List.nodup_cons] at hnd
    simp only [List.length_cons] at hi
    have hm := hms m (by simp)
    have hm32 := hm.1
    let b : BitVec 32 := (x >>> i &&& 1#32) <<< m
    have hb : ∀ k, b.getLsbD k = (decide (k = m) && x.getLsbD i) := by
      intro k
      simp only [b, BitVec.getLsbD_shiftLeft, BitVec.getLsbD_and, BitVec.getLsbD_ushiftRight,
        BitVec.getLsbD_one]
      by_cases hk : k = m
      · subst hk; simp [hm32]
      · by_cases hlt : k < m
        · simp [hlt, hk]
        · have : k - m ≠ 0 := by omega
          simp [hk, this]
    have hdisj : acc &&& b = 0#32 := by
      apply BitVec.eq_of_getLsbD_eq
      intro k hk
      rw [BitVec.getLsbD_and, hb]
      by_cases hkm : k = m
      · subst hkm; simp [hm.2]
      · simp [hkm]
    have hbn : b.toNat = bit x.toNat i * 2 ^ m := by
      have h1 : (x >>> i &&& 1#32).toNat = bit x.toNat i := by
        rw [BitVec.toNat_and, BitVec.toNat_ushiftRight, Nat.shiftRight_eq_div_pow]
        show _ &&& 1 = _
        rw [Nat.and_one_is_mod, bit]
      have hlt := bit_lt x.toNat i
      have hmul : bit x.toNat i * 2 ^ m < 2 ^ 32 := by
        have h31 : 2 ^ m ≤ 2 ^ 31 := Nat.pow_le_pow_right (by decide) (by omega)
        have : bit x.toNat i * 2 ^ m ≤ 1 * 2 ^ m := Nat.mul_le_mul_right _ (by omega)
        omega
      simp only [b, BitVec.toNat_shiftLeft, h1, Nat.shiftLeft_eq]
      exact Nat.mod_eq_of_lt hmul
    have hor : (acc ||| b).toNat = acc.toNat + bit x.toNat i * 2 ^ m := by
      rw [← BitVec.add_eq_or_of_and_eq_zero _ _ hdisj, BitVec.toNat_add_of_and_eq_zero hdisj, hbn]
    obtain ⟨r, hr, hrn, hrb⟩ := ih (i + 1) (acc ||| b) hnd.2 (by
      intro k hk
      have hk' := hms k (by simp [hk])
      refine ⟨hk'.1, ?_⟩
      have hne : k ≠ m := fun h => hnd.1 (h ▸ hk)
      simp [hk'.2, hb, hne]) (by omega)
    refine ⟨r, ?_, ?_, ?_⟩
    · simp only [setLoop, shrU, shlU, if_pos hm32, if_pos (show i < 32 by omega), RustM.bind_ok]
      exact hr
    · rw [hrn, hor, scatter]; omega
    · intro k hk
      rcases hrb k hk with h | h
      · rw [BitVec.getLsbD_or, hb] at h
        by_cases hkm : k = m
        · simp [hkm]
        · simp [hkm] at h; exact .inl h
      · simp [h]

theorem setLoop_scatter (x : BitVec 32) (ms : List Nat) (hnd : ms.Nodup) (hms : ∀ m ∈ ms, m < 32)
    (hl : ms.length ≤ 32) :
    setLoop x ms 0 0 = .ok (BitVec.ofNat 32 (scatter x.toNat ms 0)) ∧
      ∀ k, (BitVec.ofNat 32 (scatter x.toNat ms 0)).getLsbD k = true → k ∈ ms := by
  obtain ⟨r, hr, hrn, hrb⟩ := setLoop_spec x ms 0 0 hnd (fun m hm => ⟨hms m hm, by simp⟩) (by omega)
  have : BitVec.ofNat 32 (scatter x.toNat ms 0) = r := by
    apply BitVec.eq_of_toNat_eq
    have := r.isLt
    simp at hrn
    rw [BitVec.toNat_ofNat, ← hrn, Nat.mod_eq_of_lt this]
  rw [this]
  refine ⟨hr, fun k hk => ?_⟩
  rcases hrb k hk with h | h
  · simp at h
  · exact h

theorem scatter_lt (x : Nat) (ms : List Nat) (hnd : ms.Nodup) (hms : ∀ m ∈ ms, m < 32) (i : Nat)
    (hl : i + ms.length ≤ 32) (hx : x < 2 ^ 32) : scatter x ms i < 2 ^ 32 := by
  obtain ⟨r, hr, hrn, hrb⟩ := setLoop_spec (BitVec.ofNat 32 x) ms i 0 hnd
    (fun m hm => ⟨hms m hm, by simp⟩) hl
  have := r.isLt
  rw [BitVec.toNat_ofNat, Nat.mod_eq_of_lt hx] at hrn
  simp at hrn
  omega

/-- `u32::set` with a duplicate-free in-range mask. -/
theorem U32.set_eq (x : BitVec 32) (mask : List Nat) (hnd : mask.reverse.Nodup)
    (hms : ∀ m ∈ mask.reverse, m < 32) (hl : mask.reverse.length ≤ 32) :
    U32.set x mask = .ok (BitVec.ofNat 32 (scatter x.toNat mask.reverse 0)) :=
  (setLoop_scatter x _ hnd hms hl).1

/-- `u16::set` with a duplicate-free in-range mask. -/
theorem U16.set_eq (x : BitVec 16) (mask : List Nat) (hnd : mask.reverse.Nodup)
    (hms : ∀ m ∈ mask.reverse, m < 32) (hl : mask.reverse.length ≤ 32) :
    U16.set x mask = .ok (BitVec.ofNat 32 (scatter x.toNat mask.reverse 0)) := by
  have := (setLoop_scatter (x.setWidth 32) _ hnd hms hl).1
  rw [BitVec.toNat_setWidth, Nat.mod_eq_of_lt (by have := x.isLt; omega)] at this
  exact this

/-- Combining two scattered parts with disjoint targets adds them. -/
theorem scatter_or (x y : Nat) (ms ms' : List Nat) (hx : x < 2 ^ 32) (hy : y < 2 ^ 32)
    (hnd : ms.Nodup) (hnd' : ms'.Nodup)
    (hms : ∀ m ∈ ms, m < 32) (hms' : ∀ m ∈ ms', m < 32) (hdis : ∀ m ∈ ms, m ∉ ms')
    (hl : ms.length ≤ 32) (hl' : ms'.length ≤ 32) :
    BitVec.ofNat 32 (scatter x ms 0) ||| BitVec.ofNat 32 (scatter y ms' 0)
      = BitVec.ofNat 32 (scatter x ms 0 + scatter y ms' 0) := by
  have h1 := (setLoop_scatter (BitVec.ofNat 32 x) ms hnd hms hl).2
  have h2 := (setLoop_scatter (BitVec.ofNat 32 y) ms' hnd' hms' hl').2
  simp only [BitVec.toNat_ofNat, Nat.mod_eq_of_lt hx, Nat.mod_eq_of_lt hy] at h1 h2
  have hdisj : BitVec.ofNat 32 (scatter x ms 0) &&& BitVec.ofNat 32 (scatter y ms' 0) = 0#32 := by
    apply BitVec.eq_of_getLsbD_eq
    intro k hk
    rw [BitVec.getLsbD_and]
    cases ha : (BitVec.ofNat 32 (scatter x ms 0)).getLsbD k
    · simp
    · cases hb : (BitVec.ofNat 32 (scatter y ms' 0)).getLsbD k
      · simp
      · exact absurd (h2 k hb) (hdis k (h1 k ha))
  rw [← BitVec.add_eq_or_of_and_eq_zero _ _ hdisj, BitVec.ofNat_add]

end Raki
