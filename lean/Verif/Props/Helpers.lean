import Verif.Props.Errors
import Verif.Lemmas.Scatter
/-!
# The errors that occur (C58) and the bit helpers on all their arguments (C59)
-/

namespace Raki

open Spec

/-! ## Errors that occur -/

/-- C58.  The errors that decoding some `u32` returns, on RV64 and on RV32. -/
theorem C58_errors_of_u32 (e : DecodingError) :
    ((∃ w, U32.decode w .Rv64 = .err e) ↔ e ∈ [.InvalidFunct3, .InvalidFunct5, .InvalidFunct6,
      .InvalidFunct7, .InvalidOpcode, .UnknownExtension]) ∧
    ((∃ w, U32.decode w .Rv32 = .err e) ↔ e ∈ [.InvalidFunct3, .InvalidFunct5,
      .InvalidFunct7, .InvalidOpcode, .UnknownExtension, .OnlyRv64Inst]) := by
  constructor
  · constructor
    · rintro ⟨w, h⟩
      rw [C23_errors32_exact] at h
      cases e <;> first | exact h.elim | (cases h.1; done) | simp
    · intro h
      simp only [List.mem_cons, List.not_mem_nil, or_false] at h
      rcases h with rfl | rfl | rfl | rfl | rfl | rfl
      · exact ⟨0x00002063, rfl⟩
      · exact ⟨0x00200073, rfl⟩
      · exact ⟨0x04001013, rfl⟩
      · exact ⟨0x04000033, rfl⟩
      · exact ⟨0x00000000, rfl⟩
      · exact ⟨0x0000100f, rfl⟩
  · constructor
    · rintro ⟨w, h⟩
      rw [C23_errors32_exact] at h
      cases e <;> first | exact h.elim | (cases h.1; done) | simp
    · intro h
      simp only [List.mem_cons, List.not_mem_nil, or_false] at h
      rcases h with rfl | rfl | rfl | rfl | rfl | rfl
      · exact ⟨0x00002063, rfl⟩
      · exact ⟨0x00200073, rfl⟩
      · exact ⟨0x04000033, rfl⟩
      · exact ⟨0x00000000, rfl⟩
      · exact ⟨0x0000100f, rfl⟩
      · exact ⟨0x00003003, rfl⟩

/-- C58.  The errors that decoding some `u16` returns, on RV64 and on RV32. -/
theorem C58_errors_of_u16 (e : DecodingError) :
    ((∃ h, U16.decode h .Rv64 = .err e) ↔ e ∈ [.InvalidOpcode, .IllegalInstruction]) ∧
    ((∃ h, U16.decode h .Rv32 = .err e) ↔ e ∈ [.InvalidOpcode, .IllegalInstruction, .OnlyRv64Inst]) := by
  constructor
  · constructor
    · rintro ⟨h, he⟩
      rcases C24_errors16 h _ e he with rfl | rfl | ⟨-, h⟩
      · simp
      · simp
      · cases h
    · intro h
      simp only [List.mem_cons, List.not_mem_nil, or_false] at h
      rcases h with rfl | rfl
      · exact ⟨0x0003, rfl⟩
      · exact ⟨0x0000, rfl⟩
  · constructor
    · rintro ⟨h, he⟩
      rcases C24_errors16 h _ e he with rfl | rfl | ⟨rfl, -⟩ <;> simp
    · intro h
      simp only [List.mem_cons, List.not_mem_nil, or_false] at h
      rcases h with rfl | rfl | rfl
      · exact ⟨0x0003, rfl⟩
      · exact ⟨0x0000, rfl⟩
      · exact ⟨0x6000, rfl⟩

/-! ## `slice` -/

theorem slice_panics {n : Nat} (w : BitVec n) (e s : Nat) (h : ¬ (s ≤ e ∧ s < n ∧ e - s + 1 < n)) :
    (do rAssert (decide (e ≥ s))
        let a ← shrU w s
        let d ← subNat e s
        let p ← powU n 2 (d + 1)
        let m ← subU p 1
        RustM.ok (a &&& m)) = RustM.panic := by
  by_cases h1 : s ≤ e
  · by_cases h2 : s < n
    · have h3 : ¬ (2 ^ (e - s + 1) < 2 ^ n) := by
        rw [Nat.pow_lt_pow_iff_right (by decide)]; omega
      simp [rAssert, shrU, subNat, powU, h1, h2, h3, RustM.bind_ok]
    · simp [rAssert, shrU, h1, h2]
  · simp [rAssert, h1]

/-- C59.  `slice` on a `u32`: the field `end..start`, and a panic exactly when the range is empty, starts
beyond the word or is as wide as the word. -/
theorem C59_slice32 (w : BitVec 32) (e s : Nat) :
    if s ≤ e ∧ s < 32 ∧ e - s + 1 < 32
    then ∃ r, U32.slice w e s = .ok r ∧ r.toNat = w.toNat / 2 ^ s % 2 ^ (e - s + 1)
    else U32.slice w e s = .panic := by
  split
  · rename_i h
    refine ⟨_, U32.slice_eq w e s h.1 h.2.2 h.2.1, ?_⟩
    rw [toNat_ofNat_fld32, fld, show e + 1 - s = e - s + 1 by omega]
  · rename_i h
    exact slice_panics w e s h

/-- C59.  `slice` on a `u16`. -/
theorem C59_slice16 (w : BitVec 16) (e s : Nat) :
    if s ≤ e ∧ s < 16 ∧ e - s + 1 < 16
    then ∃ r, U16.slice w e s = .ok r ∧ r.toNat = w.toNat / 2 ^ s % 2 ^ (e - s + 1)
    else U16.slice w e s = .panic := by
  split
  · rename_i h
    refine ⟨_, U16.slice_eq w e s h.1 h.2.2 h.2.1, ?_⟩
    rw [toNat_ofNat_fld16, fld, show e + 1 - s = e - s + 1 by omega]
  · rename_i h
    exact slice_panics w e s h

example : U32.slice 0xdeadbeef 15 8 = .ok 0xbe := rfl
example : U32.slice 0xdeadbeef 31 0 = .panic := rfl

/-! ## `to_signed_nbit` -/

/-- C59.  `to_signed_nbit` for 1 to 30 bits: the only number in `[-2^(n-1), 2^(n-1))` that agrees with the
argument modulo `2^n`. -/
theorem C59_to_signed_nbit (x : Int) (n : Nat) (h1 : 1 ≤ n) (h2 : n ≤ 30) :
    ∃ z, to_signed_nbit x n = .ok z ∧ -2 ^ (n - 1) ≤ z ∧ z < 2 ^ (n - 1) ∧ z % 2 ^ n = x % 2 ^ n := by
  refine ⟨_, to_signed_nbit_eq x n h1 h2, ?_⟩
  obtain ⟨m, rfl⟩ : ∃ m, n = m + 1 := ⟨n - 1, by omega⟩
  have hx : ((((BitVec.ofInt 32 x).toNat % 2 ^ (m + 1) : Nat)) : Int) = x % 2 ^ (m + 1) := by
    have hd : (2 : Int) ^ (m + 1) ∣ 2 ^ 32 := by
      exact_mod_cast Nat.pow_dvd_pow 2 (show m + 1 ≤ 32 by omega)
    rw [Int.natCast_emod, BitVec.toNat_ofInt, Int.toNat_of_nonneg (Int.emod_nonneg _ (by decide))]
    have : ((2 ^ (m + 1) : Nat) : Int) = 2 ^ (m + 1) := by simp
    rw [this]
    exact Int.emod_emod_of_dvd x hd
  have hpos : (0 : Int) < 2 ^ (m + 1) := Int.pow_pos (by decide)
  have hsucc : (2 : Int) ^ (m + 1) = 2 * 2 ^ m := by rw [Int.pow_succ]; omega
  have hsuccN : 2 ^ (m + 1) = 2 * 2 ^ m := by rw [Nat.pow_succ]; omega
  have hcast : ((2 ^ m : Nat) : Int) = 2 ^ m := by simp
  have hlt := Nat.mod_lt (BitVec.ofInt 32 x).toNat (Nat.two_pow_pos (m + 1))
  generalize (BitVec.ofInt 32 x).toNat % 2 ^ (m + 1) = k at hx hlt
  rw [← hx, Nat.add_sub_cancel]
  unfold sext
  rw [Nat.add_sub_cancel]
  split
  · refine ⟨by omega, by omega, ?_⟩
    rw [Int.emod_eq_of_lt] <;> omega
  · refine ⟨by omega, by omega, ?_⟩
    rw [Int.sub_emod_right, Int.emod_eq_of_lt] <;> omega

/-- C59.  For no bits, or more than 30, it panics. -/
theorem C59_to_signed_nbit_panics (x : Int) (n : Nat) (h : n = 0 ∨ 31 ≤ n) : to_signed_nbit x n = .panic := by
  rcases h with rfl | h
  · rfl
  · have hle : (2 : Int) ^ 31 ≤ 2 ^ n := by
      have : 2 ^ 31 ≤ 2 ^ n := Nat.pow_le_pow_right (by decide) h
      exact_mod_cast this
    have : chkI32 (2 ^ n) = .panic := by
      unfold chkI32
      rw [if_neg]
      omega
    simp [to_signed_nbit, this]

example : to_signed_nbit 0xfff 12 = .ok (-1) := by decide

/-! ## `set` -/

theorem setLoop_bits (x : BitVec 32) (ms : List Nat) (i : Nat) (acc : BitVec 32)
    (hms : ∀ m ∈ ms, m < 32) (hi : i + ms.length ≤ 32) :
    ∃ r, setLoop x ms i acc = .ok r ∧
      ∀ k, r.getLsbD k = true ↔ acc.getLsbD k = true ∨
        ∃ a b, ms = a ++ k :: b ∧ x.getLsbD (i + a.length) = true := by
  induction ms generalizing i acc with
  | nil => exact ⟨acc, rfl, fun k => by simp⟩
  | cons m ms ih =>
    simp only [List.length_cons] at hi
    have hm := hms m (by simp)
    obtain ⟨r, hr, hk⟩ := ih (i + 1) (acc ||| (x >>> i &&& 1#32) <<< m) (fun k h => hms k (by simp [h]))
      (by omega)
    refine ⟨r, ?_, fun k => ?_⟩
    · rw [setLoop, shrU, if_pos (by omega), RustM.bind_ok, shlU, if_pos hm, RustM.bind_ok]
      exact hr
    · have hb : ((x >>> i &&& 1#32) <<< m).getLsbD k = (decide (k = m) && x.getLsbD i) := by
        simp only [BitVec.getLsbD_shiftLeft, BitVec.getLsbD_and, BitVec.getLsbD_ushiftRight,
          BitVec.getLsbD_one]
        by_cases hk : k = m
        · subst hk; simp [hm]
        · by_cases hlt : k < m
          · simp [hlt, hk]
          · have : k - m ≠ 0 := by omega
            simp [hk, this]
      rw [hk, BitVec.getLsbD_or, hb, Bool.or_eq_true, Bool.and_eq_true, decide_eq_true_eq, or_assoc]
      refine or_congr Iff.rfl ?_
      constructor
      · rintro (⟨rfl, h⟩ | ⟨a, b, rfl, h⟩)
        · exact ⟨[], ms, rfl, h⟩
        · exact ⟨m :: a, b, rfl, by rw [List.length_cons, ← Nat.add_assoc, Nat.add_right_comm]; exact h⟩
      · rintro ⟨a, b, e, h⟩
        cases a with
        | nil => simp at e; exact .inl ⟨e.1.symm, h⟩
        | cons c a =>
            simp at e
            obtain ⟨rfl, rfl⟩ := e
            refine .inr ⟨a, b, rfl, ?_⟩
            rw [List.length_cons, ← Nat.add_assoc, Nat.add_right_comm] at h
            exact h

theorem setLoop_panics (x : BitVec 32) (ms : List Nat) (i : Nat) (acc : BitVec 32)
    (h : ¬ ((∀ m ∈ ms, m < 32) ∧ (ms = [] ∨ i + ms.length ≤ 32))) : setLoop x ms i acc = .panic := by
  induction ms generalizing i acc with
  | nil => exact absurd ⟨by simp, .inl rfl⟩ h
  | cons m ms ih =>
    by_cases hi : i < 32
    · by_cases hm : m < 32
      · rw [setLoop, shrU, if_pos hi, RustM.bind_ok, shlU, if_pos hm, RustM.bind_ok]
        refine ih _ _ fun hn => h ⟨?_, ?_⟩
        · intro k hk
          rcases List.mem_cons.1 hk with rfl | hk
          · exact hm
          · exact hn.1 k hk
        · right
          rcases hn.2 with rfl | hn
          · simp; omega
          · simp; omega
      · rw [setLoop, shrU, if_pos hi, RustM.bind_ok, shlU, if_neg hm]; rfl
    · rw [setLoop, shrU, if_neg hi]; rfl

theorem testBit_iff {n : Nat} (x : BitVec n) (k : Nat) : x.toNat / 2 ^ k % 2 = 1 ↔ x.getLsbD k = true := by
  rw [BitVec.getLsbD, Nat.testBit, Nat.shiftRight_eq_div_pow]
  simp [Nat.one_and_eq_mod_two]

theorem set_spec (x : BitVec 32) (mask : List Nat) :
    if (∀ m ∈ mask, m < 32) ∧ mask.length ≤ 32
    then ∃ r, setLoop x mask.reverse 0 0 = .ok r ∧ ∀ k, r.toNat / 2 ^ k % 2 = 1 ↔
      ∃ a b, mask = a ++ k :: b ∧ x.toNat / 2 ^ b.length % 2 = 1
    else setLoop x mask.reverse 0 0 = .panic := by
  split
  · rename_i h
    obtain ⟨r, hr, hk⟩ := setLoop_bits x mask.reverse 0 0 (fun m hm => h.1 m (List.mem_reverse.1 hm))
      (by simpa using h.2)
    refine ⟨r, hr, fun k => ?_⟩
    rw [testBit_iff, hk]
    simp only [BitVec.ofNat_eq_ofNat, BitVec.getLsbD_zero, Bool.false_eq_true, false_or, Nat.zero_add]
    constructor
    · rintro ⟨a, b, e, h⟩
      refine ⟨b.reverse, a.reverse, ?_, ?_⟩
      · have := congrArg List.reverse e
        simpa using this
      · rw [testBit_iff, List.length_reverse]; exact h
    · rintro ⟨a, b, rfl, hb⟩
      refine ⟨b.reverse, a.reverse, by simp, ?_⟩
      rw [testBit_iff] at hb
      rw [List.length_reverse]; exact hb
  · rename_i h
    apply setLoop_panics
    rintro ⟨h1, h2⟩
    refine h ⟨fun m hm => h1 m (List.mem_reverse.2 hm), ?_⟩
    rcases h2 with h2 | h2
    · rw [List.reverse_eq_nil_iff.1 h2]; simp
    · simpa using h2

/-- C59.  `set` on a `u32`: bit `k` of the result is set exactly when `k` is listed and the bit of the
argument at that place is set, places being counted from the end of the list. -/
theorem C59_set32 (w : BitVec 32) (mask : List Nat) :
    if (∀ m ∈ mask, m < 32) ∧ mask.length ≤ 32
    then ∃ r, U32.set w mask = .ok r ∧ ∀ k, r.toNat / 2 ^ k % 2 = 1 ↔
      ∃ a b, mask = a ++ k :: b ∧ w.toNat / 2 ^ b.length % 2 = 1
    else U32.set w mask = .panic := set_spec w mask

/-- C59.  `set` on a `u16`. -/
theorem C59_set16 (w : BitVec 16) (mask : List Nat) :
    if (∀ m ∈ mask, m < 32) ∧ mask.length ≤ 32
    then ∃ r, U16.set w mask = .ok r ∧ ∀ k, r.toNat / 2 ^ k % 2 = 1 ↔
      ∃ a b, mask = a ++ k :: b ∧ w.toNat / 2 ^ b.length % 2 = 1
    else U16.set w mask = .panic := by
  have h := set_spec (w.setWidth 32) mask
  rw [BitVec.toNat_setWidth, Nat.mod_eq_of_lt (by have := w.isLt; omega)] at h
  exact h

example : U32.set 0b101 [4, 9, 2] = .ok 0b10100 := rfl

end Raki
