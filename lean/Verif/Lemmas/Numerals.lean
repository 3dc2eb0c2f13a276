import Verif.Spec.Text
import Verif.Model.Display
/-!
# The model's numerals are numerals in the sense of the specification
-/

namespace Raki

open Spec

theorem digitChar_digit (b d : Nat) (hb : b ≤ 16) (hd : d < b) :
    isDigitIn b (Nat.digitChar d) ∧ digitVal (Nat.digitChar d) = d ∧
      (Nat.digitChar d = '0' → d = 0) := by
  have h : d = 0 ∨ d = 1 ∨ d = 2 ∨ d = 3 ∨ d = 4 ∨ d = 5 ∨ d = 6 ∨ d = 7 ∨ d = 8 ∨ d = 9 ∨ d = 10 ∨
    d = 11 ∨ d = 12 ∨ d = 13 ∨ d = 14 ∨ d = 15 := by omega
  rcases h with h|h|h|h|h|h|h|h|h|h|h|h|h|h|h|h <;> subst h
  all_goals refine ⟨⟨by decide, ?_⟩, by decide, by decide⟩
  all_goals exact Nat.lt_of_le_of_lt (by decide) hd

theorem digitsVal_append (b : Nat) (cs : List Char) (c : Char) :
    digitsVal b (cs ++ [c]) = digitsVal b cs * b + digitVal c := by
  simp [digitsVal, List.foldl_append]

/-- The digits that `Nat.toDigits` produces are the numeral. -/
theorem toDigits_isNumeral (b : Nat) (hb : 1 < b) (hb16 : b ≤ 16) (n : Nat) :
    isNumeral b (Nat.toDigits b n) n ∧ (0 < n → (Nat.toDigits b n).head? ≠ some '0') := by
  induction n using Nat.strongRecOn with
  | _ n ih =>
    rw [Nat.toDigits_eq_if hb]
    split
    · rename_i h
      obtain ⟨h1, h2, h3⟩ := digitChar_digit b n hb16 h
      refine ⟨⟨by simp, by simpa using h1, ?_, by simp [digitsVal, h2]⟩, ?_⟩
      · simp only [List.head?_cons, Option.some.injEq]
        intro h; rw [h]
      · simp only [List.head?_cons, ne_eq, Option.some.injEq]
        intro hn h
        have := h3 h
        omega
    · rename_i h
      have hdiv : 0 < n / b := Nat.div_pos (by omega) (by omega)
      obtain ⟨⟨i1, i2, i3, i4⟩, i5⟩ := ih (n / b) (Nat.div_lt_self (by omega) hb)
      obtain ⟨h1, h2, h3⟩ := digitChar_digit b (n % b) hb16 (Nat.mod_lt n (by omega))
      have hh : (Nat.toDigits b (n / b) ++ [Nat.digitChar (n % b)]).head?
          = (Nat.toDigits b (n / b)).head? := by
        cases hc : Nat.toDigits b (n / b) with
        | nil => exact absurd hc i1
        | cons a l => rfl
      refine ⟨⟨by simp, ?_, ?_, ?_⟩, ?_⟩
      · intro c hc
        rcases List.mem_append.1 hc with hc | hc
        · exact i2 c hc
        · rw [List.mem_singleton.1 hc]; exact h1
      · rw [hh]; exact fun h0 => absurd h0 (i5 hdiv)
      · rw [digitsVal_append, i4, h2]
        exact Nat.div_add_mod' n b
      · rw [hh]; exact fun _ => i5 hdiv

theorem fmtUsize_isDecimal (n : Nat) : isDecimal (fmtUsize n) n := by
  refine .inl ⟨by omega, ?_⟩
  show isNumeral 10 (Nat.repr n).toList _
  rw [Nat.toList_repr]
  exact (toDigits_isNumeral 10 (by omega) (by omega) n).1

theorem fmtI32_isDecimal (z : Int) : isDecimal (fmtI32 z) z := by
  cases z with
  | ofNat n => exact fmtUsize_isDecimal n
  | negSucc n =>
      refine .inr ⟨by omega, Nat.toDigits 10 (n + 1), ?_, ?_⟩
      · show (("-" ++ Nat.repr (n + 1) : String)).toList = _
        rw [String.toList_append, Nat.toList_repr]
        rfl
      · have : (-(Int.negSucc n)).toNat = n + 1 := rfl
        rw [this]
        exact (toDigits_isNumeral 10 (by omega) (by omega) _).1

theorem hexNat_isHex (n : Nat) : isHex (hexNat n) n := by
  rw [isHex, hexNat, String.toList_ofList]
  exact (toDigits_isNumeral 16 (by omega) (by omega) n).1

theorem fmtI32Hex_isHex32 (z : Int) : isHex32 (fmtI32Hex z) z := by
  have := hexNat_isHex (BitVec.ofInt 32 z).toNat
  rwa [isHex, BitVec.toNat_ofInt] at this

/-! ## Reading numerals back -/

theorem numeral_inj {b : Nat} {cs : List Char} {n m : Nat} (h : isNumeral b cs n)
    (h' : isNumeral b cs m) : n = m := h.2.2.2.symm.trans h'.2.2.2

theorem digit_ne {b : Nat} {c : Char} (h : isDigitIn b c) :
    c ≠ ',' ∧ c ≠ '(' ∧ c ≠ ')' ∧ c ≠ '-' ∧ c ≠ ' ' := by
  obtain ⟨h, -⟩ := h
  refine ⟨?_, ?_, ?_, ?_, ?_⟩ <;> (rintro rfl; revert h; decide)

theorem decimal_inj {s : String} {z y : Int} (h : isDecimal s z) (h' : isDecimal s y) : z = y := by
  rcases h with ⟨h0, h⟩ | ⟨h0, cs, hs, h⟩ <;> rcases h' with ⟨h0', h'⟩ | ⟨h0', cs', hs', h'⟩
  · have := numeral_inj h h'; omega
  · exact absurd rfl (digit_ne (h.2.1 '-' (by rw [hs']; simp))).2.2.2.1
  · exact absurd rfl (digit_ne (h'.2.1 '-' (by rw [hs]; simp))).2.2.2.1
  · rw [hs] at hs'
    injection hs' with _ hs'
    subst hs'
    have := numeral_inj h h'; omega

theorem decimal_chars {s : String} {z : Int} (h : isDecimal s z) :
    ∀ c ∈ s.toList, c ≠ ',' ∧ c ≠ '(' ∧ c ≠ ' ' := by
  intro c hc
  rcases h with ⟨-, h⟩ | ⟨-, cs, hs, h⟩
  · have := digit_ne (h.2.1 c hc)
    exact ⟨this.1, this.2.1, this.2.2.2.2⟩
  · rw [hs] at hc
    rcases List.mem_cons.1 hc with rfl | hc
    · decide
    · have := digit_ne (h.2.1 c hc)
      exact ⟨this.1, this.2.1, this.2.2.2.2⟩

/-! ## Registers -/

theorem lt32_cases (n : Nat) (h : n < 32) :
    n = 0 ∨ n = 1 ∨ n = 2 ∨ n = 3 ∨ n = 4 ∨ n = 5 ∨ n = 6 ∨ n = 7 ∨ n = 8 ∨ n = 9 ∨ n = 10 ∨
    n = 11 ∨ n = 12 ∨ n = 13 ∨ n = 14 ∨ n = 15 ∨ n = 16 ∨ n = 17 ∨ n = 18 ∨ n = 19 ∨ n = 20 ∨
    n = 21 ∨ n = 22 ∨ n = 23 ∨ n = 24 ∨ n = 25 ∨ n = 26 ∨ n = 27 ∨ n = 28 ∨ n = 29 ∨ n = 30 ∨
    n = 31 := by omega

theorem reg2str_ok (n : Nat) (h : n < 32) : reg2str n = .ok (abiName n) := by
  rcases lt32_cases n h with h|h|h|h|h|h|h|h|h|h|h|h|h|h|h|h|h|h|h|h|h|h|h|h|h|h|h|h|h|h|h|h <;>
    subst h <;> rfl

theorem reg2str_panic (n : Nat) (h : 32 ≤ n) : reg2str n = .panic := by
  unfold reg2str
  split <;> first | omega | rfl

/-- A register name as a number in base 256. -/
def regKey (s : String) : Nat := s.toList.foldl (fun a c => a * 256 + c.toNat) 0

/-- The register with a given name. -/
def regOf (s : String) : Nat :=
  [2053468783, 29281, 29552, 26480, 29808, 29744, 29745, 29746, 29488, 29489, 24880, 24881, 24882,
    24883, 24884, 24885, 24886, 24887, 29490, 29491, 29492, 29493, 29494, 29495, 29496, 29497, 7549232,
    7549233, 29747, 29748, 29749, 29750].idxOf (regKey s)

theorem regOf_abiName (n : Nat) (h : n < 32) : regOf (abiName n) = n := by
  rcases lt32_cases n h with h|h|h|h|h|h|h|h|h|h|h|h|h|h|h|h|h|h|h|h|h|h|h|h|h|h|h|h|h|h|h|h <;>
    subst h <;> decide

theorem abiName_inj (n m : Nat) (hn : n < 32) (hm : m < 32) (h : abiName n = abiName m) : n = m := by
  rw [← regOf_abiName n hn, h, regOf_abiName m hm]

theorem abiName_chars (n : Nat) (h : n < 32) :
    ∀ c ∈ (abiName n).toList, c ≠ ',' ∧ c ≠ '(' ∧ c ≠ ')' ∧ c ≠ ' ' := by
  rcases lt32_cases n h with h|h|h|h|h|h|h|h|h|h|h|h|h|h|h|h|h|h|h|h|h|h|h|h|h|h|h|h|h|h|h|h <;>
    subst h <;> decide

end Raki
