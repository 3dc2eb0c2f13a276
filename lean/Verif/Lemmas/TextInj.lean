import Verif.Lemmas.Print
/-!
# Texts are unique and can be read back
-/

namespace Raki

open Spec

/-! ## Uniqueness of numerals -/

theorem char_of_toNat {c d : Char} (h : c.toNat = d.toNat) : c = d := by
  apply Char.ext
  apply UInt32.toNat_inj.1
  exact h

theorem digitChar_digitVal (b : Nat) (c : Char) (h : isDigitIn b c) :
    Nat.digitChar (digitVal c) = c := by
  obtain ⟨h, -⟩ := h
  have hk : c.toNat = 48 ∨ c.toNat = 49 ∨ c.toNat = 50 ∨ c.toNat = 51 ∨ c.toNat = 52 ∨ c.toNat = 53 ∨
    c.toNat = 54 ∨ c.toNat = 55 ∨ c.toNat = 56 ∨ c.toNat = 57 ∨ c.toNat = 97 ∨ c.toNat = 98 ∨
    c.toNat = 99 ∨ c.toNat = 100 ∨ c.toNat = 101 ∨ c.toNat = 102 := by omega
  rcases hk with h|h|h|h|h|h|h|h|h|h|h|h|h|h|h|h
  all_goals
    apply char_of_toNat
    rw [h]
    simp only [digitVal, h]
    decide

theorem numeral_eq (b : Nat) (hb : 1 < b) (hb16 : b ≤ 16) (cs : List Char) :
    ∀ n, isNumeral b cs n → cs = Nat.toDigits b n := by
  suffices H : ∀ (k : Nat) (cs : List Char), cs.length = k → ∀ n, isNumeral b cs n →
      cs = Nat.toDigits b n from H _ cs rfl
  intro k
  induction k with
  | zero => intro cs hk n h; exact absurd (List.length_eq_zero_iff.1 hk) h.1
  | succ k ih =>
      intro cs hk n ⟨hne, hd, hz, hv⟩
      obtain ⟨ds, c, rfl⟩ : ∃ ds c, cs = ds ++ [c] :=
        ⟨cs.dropLast, cs.getLast hne, (List.dropLast_concat_getLast hne).symm⟩
      have hc : isDigitIn b c := hd c (by simp)
      rw [digitsVal_append] at hv
      by_cases hds : ds = []
      · subst hds
        have hv' : digitVal c = n := by simpa [digitsVal] using hv
        rw [Nat.toDigits_of_lt_base (by rw [← hv']; exact hc.2), ← hv',
          digitChar_digitVal b c hc]
        rfl
      · have hnum : isNumeral b ds (digitsVal b ds) := by
          refine ⟨hds, fun x hx => hd x (by simp [hx]), ?_, rfl⟩
          intro h0
          have hh : (ds ++ [c]).head? = some '0' := by
            cases ds with
            | nil => exact absurd rfl hds
            | cons a l => simpa using h0
          have hl := congrArg List.length (hz hh)
          have : ds.length = 0 := by simpa using hl
          exact absurd (List.length_eq_zero_iff.1 this) hds
        have e := ih ds (by simpa using hk) _ hnum
        have hpos : 0 < digitsVal b ds := by
          refine Nat.pos_of_ne_zero fun h0 => ?_
          rw [h0, Nat.toDigits_zero] at e
          subst e
          have hl := congrArg List.length (hz rfl)
          simp at hl
        have h1 : n / b = digitsVal b ds := by
          rw [← hv, Nat.mul_comm, Nat.mul_add_div (by omega), Nat.div_eq_of_lt hc.2, Nat.add_zero]
        have h2 : n % b = digitVal c := by
          rw [← hv, Nat.mul_comm, Nat.mul_add_mod, Nat.mod_eq_of_lt hc.2]
        have hle : b ≤ n := by
          rw [← hv]
          calc b = 1 * b := (Nat.one_mul b).symm
            _ ≤ digitsVal b ds * b := Nat.mul_le_mul_right b hpos
            _ ≤ _ := Nat.le_add_right _ _
        rw [Nat.toDigits_of_base_le hb hle, h1, h2, ← e, digitChar_digitVal b c hc]

theorem numeral_unique {b : Nat} (hb : 1 < b) (hb16 : b ≤ 16) {cs ds : List Char} {n : Nat}
    (h : isNumeral b cs n) (h' : isNumeral b ds n) : cs = ds := by
  rw [numeral_eq b hb hb16 cs n h, numeral_eq b hb hb16 ds n h']

theorem string_ext {s t : String} (h : s.toList = t.toList) : s = t := String.toList_inj.1 h

theorem decimal_unique {s t : String} {z : Int} (h : isDecimal s z) (h' : isDecimal t z) : s = t := by
  apply string_ext
  rcases h with ⟨h0, h⟩ | ⟨h0, cs, hs, h⟩ <;> rcases h' with ⟨h0', h'⟩ | ⟨h0', cs', hs', h'⟩
  · exact numeral_unique (by omega) (by omega) h h'
  · omega
  · omega
  · rw [hs, hs', numeral_unique (by omega) (by omega) h h']

theorem hex_unique {s t : String} {n : Nat} (h : isHex s n) (h' : isHex t n) : s = t :=
  string_ext (numeral_unique (by omega) (by omega) h h')

theorem hex32_unique {s t : String} {z : Int} (h : isHex32 s z) (h' : isHex32 t z) : s = t :=
  string_ext (numeral_unique (by omega) (by omega) h h')

theorem name_unique {o : Option Nat} {s t : String} (h : isName o s) (h' : isName o t) : s = t := by
  obtain ⟨n, e, -, rfl⟩ := h
  obtain ⟨m, e', -, rfl⟩ := h'
  rw [e] at e'; injection e' with e'; rw [e']

theorem argText_unique {i : Instruction} {a : Arg} {s t : String} (h : argText i a s)
    (h' : argText i a t) : s = t := by
  cases a <;> simp only [argText] at h h'
  case rd | rs1 | rs2 => exact name_unique h h'
  case lit => rw [h, h']
  case at1 =>
    obtain ⟨r, h, rfl⟩ := h; obtain ⟨r', h', rfl⟩ := h'
    rw [name_unique h h']
  case num1 | num2 =>
    obtain ⟨n, e, h⟩ := h; obtain ⟨m, e', h'⟩ := h'
    rw [e] at e'; injection e' with e'; subst e'
    exact decimal_unique h h'
  case hex2 =>
    obtain ⟨n, d, e, h, rfl⟩ := h; obtain ⟨m, d', e', h', rfl⟩ := h'
    rw [e] at e'; injection e' with e'; subst e'
    rw [hex_unique h h']
  case imm =>
    obtain ⟨n, e, h⟩ := h; obtain ⟨m, e', h'⟩ := h'
    rw [e] at e'; injection e' with e'; subst e'
    exact decimal_unique h h'
  case immHex =>
    obtain ⟨n, d, e, h, rfl⟩ := h; obtain ⟨m, d', e', h', rfl⟩ := h'
    rw [e] at e'; injection e' with e'; subst e'
    rw [hex32_unique h h']
  case immHexBare =>
    obtain ⟨n, e, h⟩ := h; obtain ⟨m, e', h'⟩ := h'
    rw [e] at e'; injection e' with e'; subst e'
    exact hex32_unique h h'
  case immAt2 =>
    obtain ⟨n, d, r, e, h, g, rfl⟩ := h; obtain ⟨m, d', r', e', h', g', rfl⟩ := h'
    rw [e] at e'; injection e' with e'; subst e'
    rw [decimal_unique h h', name_unique g g']
  case immAtSp =>
    obtain ⟨n, d, e, h, rfl⟩ := h; obtain ⟨m, d', e', h', rfl⟩ := h'
    rw [e] at e'; injection e' with e'; subst e'
    rw [decimal_unique h h']

theorem argTexts_unique {i : Instruction} {as : List Arg} {ss ts : List String}
    (h : argTexts i as ss) (h' : argTexts i as ts) : ss = ts := by
  induction as generalizing ss ts with
  | nil => cases ss <;> cases ts <;> first | rfl | exact h.elim | exact h'.elim
  | cons a as ih =>
      cases ss with
      | nil => exact h.elim
      | cons s ss =>
          cases ts with
          | nil => exact h'.elim
          | cons t ts => rw [argText_unique h.1 h'.1, ih h.2 h'.2]

/-! ## Splitting -/

/-- Texts with a separator behind them: the first occurrence of the separator splits. -/
theorem split_at (c : Char) (a b x y : List Char) (ha : ∀ d ∈ a, d ≠ c) (hb : ∀ d ∈ b, d ≠ c)
    (h : a ++ c :: x = b ++ c :: y) : a = b ∧ x = y := by
  induction a generalizing b with
  | nil =>
      cases b with
      | nil => exact ⟨rfl, by simpa using h⟩
      | cons d b =>
          exfalso
          simp only [List.nil_append, List.cons_append, List.cons.injEq] at h
          exact hb d (by simp) h.1.symm
  | cons d a ih =>
      cases b with
      | nil =>
          exfalso
          simp only [List.nil_append, List.cons_append, List.cons.injEq] at h
          exact ha d (by simp) h.1
      | cons e b =>
          simp only [List.cons_append, List.cons.injEq] at h
          obtain ⟨r1, r2⟩ := ih b (fun x hx => ha x (by simp [hx])) (fun x hx => hb x (by simp [hx])) h.2
          exact ⟨by rw [h.1, r1], r2⟩

theorem commas_inj (ss ts : List String) (hl : ss.length = ts.length)
    (hs : ∀ s ∈ ss, ∀ c ∈ s.toList, c ≠ ',') (ht : ∀ s ∈ ts, ∀ c ∈ s.toList, c ≠ ',')
    (h : commas ss = commas ts) : ss = ts := by
  induction ss generalizing ts with
  | nil => cases ts with
    | nil => rfl
    | cons t ts => simp at hl
  | cons s ss ih =>
      cases ts with
      | nil => simp at hl
      | cons t ts =>
          cases ss with
          | nil =>
              cases ts with
              | nil => simpa [commas] using h
              | cons _ _ => simp at hl
          | cons s' ss =>
              cases ts with
              | nil => simp at hl
              | cons t' ts =>
                  simp only [commas] at h
                  have h2 := congrArg String.toList h
                  simp only [String.toList_append, List.append_assoc] at h2
                  have hc : (", ").toList = [',', ' '] := rfl
                  rw [hc] at h2
                  obtain ⟨e1, e2⟩ := split_at ',' _ _ _ _ (hs s (by simp)) (ht t (by simp)) h2
                  injection e2 with _ e2
                  rw [string_ext e1, ih (t' :: ts) (by simpa using hl)
                    (fun x hx => hs x (by simp at hx ⊢; exact .inr hx))
                    (fun x hx => ht x (by simp at hx ⊢; exact .inr hx)) (string_ext e2)]

/-! ## Reading items back -/

theorem name_chars {o : Option Nat} {s : String} (h : isName o s) :
    ∀ c ∈ s.toList, c ≠ ',' ∧ c ≠ '(' ∧ c ≠ ')' ∧ c ≠ ' ' := by
  obtain ⟨n, -, hn, rfl⟩ := h
  exact abiName_chars n hn

theorem hex_chars {s : String} {n : Nat} (h : isHex s n) : ∀ c ∈ s.toList, c ≠ ',' := by
  intro c hc
  exact (digit_ne (h.2.1 c hc)).1

/-- The fixed items contain no comma. -/
def Spec.Arg.plain : Arg → Prop
  | .lit t => ∀ c ∈ t.toList, c ≠ ','
  | _ => True

theorem argText_no_comma {i : Instruction} {a : Arg} {s : String} (hp : a.plain)
    (h : argText i a s) : ∀ c ∈ s.toList, c ≠ ',' := by
  cases a <;> simp only [argText] at h
  case rd | rs1 | rs2 => exact fun c hc => (name_chars h c hc).1
  case lit => subst h; exact hp
  case at1 =>
    obtain ⟨r, h, rfl⟩ := h
    intro c hc
    simp only [String.toList_append, List.mem_append] at hc
    rcases hc with (hc | hc) | hc
    · revert c; decide
    · exact (name_chars h c hc).1
    · revert c; decide
  case num1 | num2 | imm =>
    obtain ⟨n, -, h⟩ := h
    exact fun c hc => (decimal_chars h c hc).1
  case hex2 =>
    obtain ⟨n, d, -, h, rfl⟩ := h
    intro c hc
    simp only [String.toList_append, List.mem_append] at hc
    rcases hc with hc | hc
    · revert c; decide
    · exact hex_chars h c hc
  case immHex =>
    obtain ⟨n, d, -, h, rfl⟩ := h
    intro c hc
    simp only [String.toList_append, List.mem_append] at hc
    rcases hc with hc | hc
    · revert c; decide
    · exact hex_chars h c hc
  case immHexBare =>
    obtain ⟨n, -, h⟩ := h
    exact fun c hc => hex_chars h c hc
  case immAt2 =>
    obtain ⟨z, d, r, -, h, g, rfl⟩ := h
    intro c hc
    simp only [String.toList_append, List.mem_append] at hc
    rcases hc with ((hc | hc) | hc) | hc
    · exact (decimal_chars h c hc).1
    · revert c; decide
    · exact (name_chars g c hc).1
    · revert c; decide
  case immAtSp =>
    obtain ⟨z, d, -, h, rfl⟩ := h
    intro c hc
    simp only [String.toList_append, List.mem_append] at hc
    rcases hc with hc | hc
    · exact (decimal_chars h c hc).1
    · revert c; decide

theorem name_inj {o p : Option Nat} {s : String} (h : isName o s) (h' : isName p s) : o = p := by
  obtain ⟨n, e, hn, rfl⟩ := h
  obtain ⟨m, e', hm, h'⟩ := h'
  rw [e, e', abiName_inj n m hn hm h']

/-- The immediate is an `i32`. -/
def immI32 (i : Instruction) : Prop := ∀ z, i.imm = some z → -2 ^ 31 ≤ z ∧ z < 2 ^ 31

theorem hex32_inj {s : String} {z y : Int} (hz : -2 ^ 31 ≤ z ∧ z < 2 ^ 31)
    (hy : -2 ^ 31 ≤ y ∧ y < 2 ^ 31) (h : isHex32 s z) (h' : isHex32 s y) : z = y := by
  have := numeral_inj h h'
  omega

/-- The text of an item determines the operands it shows. -/
theorem argText_shows {i j : Instruction} {a : Arg} {s : String} (hi : immI32 i) (hj : immI32 j)
    (h : argText i a s) (h' : argText j a s) : ∀ x ∈ a.shows, sameOperand i j x := by
  cases a <;> simp only [argText] at h h' <;>
    simp only [Arg.shows, List.mem_cons, List.not_mem_nil, or_false, forall_eq, false_implies,
      implies_true, forall_eq_or_imp, sameOperand]
  case rd | rs1 | rs2 => exact name_inj h h'
  case at1 =>
    obtain ⟨r, h, rfl⟩ := h
    obtain ⟨r', h', e⟩ := h'
    have e2 := congrArg String.toList e
    simp only [String.toList_append, List.append_assoc, List.append_cancel_left_eq] at e2
    have hc : (")").toList = [')'] := rfl
    rw [hc] at e2
    obtain ⟨e3, -⟩ := split_at ')' _ _ _ _ (fun c hc => (name_chars h c hc).2.2.1)
      (fun c hc => (name_chars h' c hc).2.2.1) e2
    rw [string_ext e3] at h
    exact name_inj h h'
  case num1 | num2 =>
    obtain ⟨n, e, h⟩ := h; obtain ⟨m, e', h'⟩ := h'
    have := decimal_inj h h'
    rw [e, e']
    congr 1
    omega
  case hex2 =>
    obtain ⟨n, d, e, h, rfl⟩ := h; obtain ⟨m, d', e', h', ee⟩ := h'
    have e2 := congrArg String.toList ee
    simp only [String.toList_append, List.append_cancel_left_eq] at e2
    rw [string_ext e2] at h
    rw [e, e', numeral_inj h h']
  case imm =>
    obtain ⟨n, e, h⟩ := h; obtain ⟨m, e', h'⟩ := h'
    rw [e, e', decimal_inj h h']
  case immHex =>
    obtain ⟨n, d, e, h, rfl⟩ := h; obtain ⟨m, d', e', h', ee⟩ := h'
    have e2 := congrArg String.toList ee
    simp only [String.toList_append, List.append_cancel_left_eq] at e2
    rw [string_ext e2] at h
    rw [e, e', hex32_inj (hi n e) (hj m e') h h']
  case immHexBare =>
    obtain ⟨n, e, h⟩ := h; obtain ⟨m, e', h'⟩ := h'
    rw [e, e', hex32_inj (hi n e) (hj m e') h h']
  case immAt2 =>
    obtain ⟨z, d, r, e, h, g, rfl⟩ := h
    obtain ⟨z', d', r', e', h', g', ee⟩ := h'
    have e2 := congrArg String.toList ee
    simp only [String.toList_append, List.append_assoc] at e2
    have hc : ("(").toList = ['('] := rfl
    have hc' : (")").toList = [')'] := rfl
    rw [hc, hc'] at e2
    obtain ⟨e3, e4⟩ := split_at '(' _ _ _ _ (fun c hc => (decimal_chars h c hc).2.1)
      (fun c hc => (decimal_chars h' c hc).2.1) e2
    obtain ⟨e5, -⟩ := split_at ')' _ _ _ _ (fun c hc => (name_chars g c hc).2.2.1)
      (fun c hc => (name_chars g' c hc).2.2.1) e4
    rw [string_ext e3] at h
    rw [string_ext e5] at g
    exact ⟨by rw [e, e', decimal_inj h h'], name_inj g g'⟩
  case immAtSp =>
    obtain ⟨z, d, e, h, rfl⟩ := h
    obtain ⟨z', d', e', h', ee⟩ := h'
    have e2 := congrArg String.toList ee
    simp only [String.toList_append, List.append_cancel_right_eq] at e2
    rw [string_ext e2] at h
    rw [e, e', decimal_inj h h']

theorem argTexts_shows {i j : Instruction} (hi : immI32 i) (hj : immI32 j) {as : List Arg}
    {ss : List String} (h : argTexts i as ss) (h' : argTexts j as ss) :
    ∀ x ∈ as.flatMap Arg.shows, sameOperand i j x := by
  induction as generalizing ss with
  | nil => simp
  | cons a as ih =>
      cases ss with
      | nil => exact h.elim
      | cons s ss =>
          intro x hx
          simp only [List.flatMap_cons, List.mem_append] at hx
          rcases hx with hx | hx
          · exact argText_shows hi hj h.1 h'.1 x hx
          · exact ih h.2 h'.2 x hx

theorem argTexts_length {i : Instruction} {as : List Arg} {ss : List String} (h : argTexts i as ss) :
    ss.length = as.length := by
  induction as generalizing ss with
  | nil => cases ss with
    | nil => rfl
    | cons => exact h.elim
  | cons a as ih => cases ss with
    | nil => exact h.elim
    | cons s ss => simp [ih h.2]

theorem argTexts_no_comma {i : Instruction} {as : List Arg} {ss : List String}
    (hp : ∀ a ∈ as, a.plain) (h : argTexts i as ss) : ∀ s ∈ ss, ∀ c ∈ s.toList, c ≠ ',' := by
  induction as generalizing ss with
  | nil => cases ss with
    | nil => simp
    | cons => exact h.elim
  | cons a as ih => cases ss with
    | nil => exact h.elim
    | cons s ss =>
        intro t ht
        rcases List.mem_cons.1 ht with rfl | ht
        · exact argText_no_comma (hp a (by simp)) h.1
        · exact ih (fun b hb => hp b (by simp [hb])) h.2 t ht

/-! ## Names -/

/-- A name as a number in base 256. -/
def nameKey (s : String) : Nat := s.toList.foldl (fun a c => a * 256 + c.toNat) 0

/-- All opcodes with the keys of their printed names. -/
def nameTable : List (Nat × OpcodeKind) := [
  (7107945, .BaseI .LUI), (418581672035, .BaseI .AUIPC), (6971756, .BaseI .JAL),
  (1784769650, .BaseI .JALR), (6448497, .BaseI .BEQ), (6450789, .BaseI .BNE),
  (6450292, .BaseI .BLT), (6448997, .BaseI .BGE), (1651274869, .BaseI .BLTU),
  (1650943349, .BaseI .BGEU), (27746, .BaseI .LB), (27752, .BaseI .LH), (27767, .BaseI .LW),
  (7103093, .BaseI .LBU), (7104629, .BaseI .LHU), (29538, .BaseI .SB), (29544, .BaseI .SH),
  (29559, .BaseI .SW), (1633969257, .BaseI .ADDI), (1936487529, .BaseI .SLTI),
  (495740807541, .BaseI .SLTIU), (2020569705, .BaseI .XORI), (7303785, .BaseI .ORI),
  (1634624617, .BaseI .ANDI), (1936485481, .BaseI .SLLI), (1936878697, .BaseI .SRLI),
  (1936875881, .BaseI .SRAI), (6382692, .BaseI .ADD), (7566690, .BaseI .SUB),
  (7564396, .BaseI .SLL), (7564404, .BaseI .SLT), (1936487541, .BaseI .SLTU),
  (7892850, .BaseI .XOR), (7565932, .BaseI .SRL), (7565921, .BaseI .SRA), (28530, .BaseI .OR),
  (6385252, .BaseI .AND), (435459026028, .BaseI .ECALL), (111473500447083, .BaseI .EBREAK),
  (7108469, .BaseI .LWU), (27748, .BaseI .LD), (29540, .BaseI .SD), (418296129911, .BaseI .ADDIW),
  (495740283255, .BaseI .SLLIW), (495840946551, .BaseI .SRLIW), (495840225655, .BaseI .SRAIW),
  (1633969271, .BaseI .ADDW), (1937072759, .BaseI .SUBW), (1936485495, .BaseI .SLLW),
  (1936878711, .BaseI .SRLW), (1936875895, .BaseI .SRAW), (7173484, .M .MUL),
  (1836412008, .M .MULH), (30809880930776364, .M .MULHSU), (470121474165, .M .MULHU),
  (6580598, .M .DIV), (1684633205, .M .DIVU), (7497069, .M .REM), (1919249781, .M .REMU),
  (1836412023, .M .MULW), (1684633207, .M .DIVW), (431266100599, .M .DIVUW),
  (1919249783, .M .REMW), (491327944055, .M .REMUW), (1819422327, .A .LR_W),
  (1935879799, .A .SC_W), (1797219823578948578935, .A .AMOSWAP_W),
  (7020389858227269239, .A .AMOADD_W), (7020389957196983927, .A .AMOXOR_W),
  (7020389858395041399, .A .AMOAND_W), (27423398119485047, .A .AMOOR_W),
  (7020389909851418231, .A .AMOMIN_W), (7020389909717855863, .A .AMOMAX_W),
  (1797219816921967701623, .A .AMOMINU_W), (1797219816887775735415, .A .AMOMAXU_W),
  (1819422308, .A .LR_D), (1935879780, .A .SC_D), (1797219823578948578916, .A .AMOSWAP_D),
  (7020389858227269220, .A .AMOADD_D), (7020389957196983908, .A .AMOXOR_D),
  (7020389858395041380, .A .AMOAND_D), (27423398119485028, .A .AMOOR_D),
  (7020389909851418212, .A .AMOMIN_D), (7020389909717855844, .A .AMOMAX_D),
  (1797219816921967701604, .A .AMOMINU_D), (1797219816887775735396, .A .AMOMAXU_D),
  (317254122424179233091694, .C .ADDI4SPN), (1127115895, .C .LW), (1127117687, .C .SW),
  (288541798256, .C .NOP), (73866481525865, .C .ADDI), (288541532524, .C .JAL),
  (1127115881, .C .LI), (317254122424179178763120, .C .ADDI16SP), (288541668713, .C .LUI),
  (73866784435305, .C .SRLI), (73866784432489, .C .SRAI), (73866482181225, .C .ANDI),
  (288542127458, .C .SUB), (288542453618, .C .XOR), (1127116658, .C .OR), (288540946020, .C .AND),
  (4402794, .C .J), (73866498371962, .C .BEQZ), (73866498958714, .C .BNEZ),
  (73866784042089, .C .SLLI), (73866667324272, .C .LWSP), (1127115378, .C .JR),
  (1127116150, .C .MV), (4840918122970308971, .C .EBREAK), (73866632326258, .C .JALR),
  (288540943460, .C .ADD), (73866784764784, .C .SWSP), (1127115876, .C .LD), (1127117668, .C .SD),
  (18909819270621559, .C .ADDIW), (73866784629367, .C .SUBW), (73866481525879, .C .ADDW),
  (73866666079088, .C .LDSP), (73866783519600, .C .SDSP), (28821972412870249, .Zifencei .FENCE),
  (7161408602885157487, .Zicboz .CBO_ZERO), (427138642551, .Zicsr .CSRRW),
  (427138642547, .Zicsr .CSRRS), (427138642531, .Zicsr .CSRRC), (109347492493161, .Zicsr .CSRRWI),
  (109347492492137, .Zicsr .CSRRSI), (109347492488041, .Zicsr .CSRRCI),
  (126939645178728, .Zicfiss .SSPUSH), (7146776598328734568, .Zicfiss .C_SSPUSH),
  (8319116560612681835, .Zicfiss .SSPOPCHK), (468371151148046128212075, .Zicfiss .C_SSPOPCHK),
  (495858115696, .Zicfiss .SSRDP), (139571338621035943239364215, .Zicfiss .SSAMOSWAP_W),
  (139571338621035943239364196, .Zicfiss .SSAMOSWAP_D), (8242822591005091176, .Zicntr .RDCYCLE_H),
  (32198598492775784, .Zicntr .RDTIME_H), (540202050591075902780520, .Zicntr .RDINSTRET_H),
  (32198525746113637, .Zicntr .RDCYCLE), (125775775362405, .Zicntr .RDTIME),
  (2110164260121390245236, .Zicntr .RDINSTRET), (1836213620, .Priv .MRET),
  (1936876916, .Priv .SRET), (7825001, .Priv .WFI), (544961022314059065093473, .Priv .SFENCE_VMA)]

/-- The opcode with a given printed name. -/
def opcodeOf (s : String) : Option OpcodeKind :=
  (nameTable.find? fun p => p.1 == nameKey s).map Prod.snd

theorem opcodeOf_toStr (op : OpcodeKind) : opcodeOf op.toStr = some op := by
  rcases op with o | o | o | o | o | o | o | o | o | o
  all_goals cases o
  all_goals rfl

theorem toStr_inj (op op' : OpcodeKind) (h : op.toStr = op'.toStr) : op = op' := by
  have e := opcodeOf_toStr op
  rw [h, opcodeOf_toStr] at e
  injection e with e
  exact e.symm

theorem toStr_no_space (op : OpcodeKind) : ∀ c ∈ op.toStr.toList, c ≠ ' ' := by
  rcases op with o | o | o | o | o | o | o | o | o | o
  all_goals cases o
  all_goals decide

theorem args_plain (op : OpcodeKind) (as : List Arg) (h : args op = some as) :
    ∀ a ∈ as, a.plain := by
  revert h
  rcases op with o | o | o | o | o | o | o | o | o | o
  all_goals cases o
  all_goals intro h
  all_goals simp only [args, Option.some.injEq, reduceCtorEq] at h
  all_goals subst h
  all_goals simp [Spec.Arg.plain]

/-- Splitting a line into its name and its items. -/
theorem line_inj (n m : String) (ss ts : List String) (hn : ∀ c ∈ n.toList, c ≠ ' ')
    (hm : ∀ c ∈ m.toList, c ≠ ' ') (h : line n ss = line m ts) :
    n = m ∧ (ss = [] ↔ ts = []) ∧ commas ss = commas ts := by
  have h2 := congrArg String.toList h
  have hc : (" ").toList = [' '] := rfl
  cases ss with
  | nil => cases ts with
    | nil => exact ⟨h, by simp, rfl⟩
    | cons t ts =>
        exfalso
        simp only [line, String.toList_append, hc, List.append_assoc] at h2
        exact hn ' ' (by rw [h2]; simp) rfl
  | cons s ss => cases ts with
    | nil =>
        exfalso
        simp only [line, String.toList_append, hc, List.append_assoc] at h2
        exact hm ' ' (by rw [← h2]; simp) rfl
    | cons t ts =>
        simp only [line, String.toList_append, hc, List.append_assoc] at h2
        obtain ⟨e1, e2⟩ := split_at ' ' _ _ _ _ hn hm h2
        exact ⟨string_ext e1, by simp, string_ext e2⟩

/-- Reading a text back: the opcode and the operands shown. -/
theorem isText_inj {i j : Instruction} (hi : immI32 i) (hj : immI32 j) {s : String} (h : isText i s)
    (h' : isText j s) : i.opc = j.opc ∧ ∀ x ∈ shown i.opc, sameOperand i j x := by
  obtain ⟨as, ss, ha, ht, rfl⟩ := h
  obtain ⟨as', ss', ha', ht', e⟩ := h'
  rw [← toStr_printedName, ← toStr_printedName] at e
  obtain ⟨e1, -, e3⟩ := line_inj _ _ _ _ (toStr_no_space _) (toStr_no_space _) e
  have ho := toStr_inj _ _ e1
  rw [← ho, ha] at ha'
  injection ha' with ha'
  subst ha'
  have hs : ss = ss' := commas_inj ss ss' (by rw [argTexts_length ht, argTexts_length ht'])
    (argTexts_no_comma (args_plain _ _ ha) ht) (argTexts_no_comma (args_plain _ _ ha) ht') e3
  subst hs
  refine ⟨ho, ?_⟩
  rw [shown, ha]
  exact argTexts_shows hi hj ht ht'

end Raki
