import Verif.Spec.AsmExact
import Verif.Props.DocText
/-!
# Exactly which texts are assembly language (C72)
-/

namespace Raki

open Spec

/-! ## Lines determine name and operands -/

theorem number_chars {s : String} {z : Int} (h : isNumber s z) : ∀ c ∈ s.toList, c ≠ ',' ∧ c ≠ '(' := by
  rcases h with h | ⟨n, d, -, h, rfl⟩
  · exact fun c hc => ⟨(decimal_chars h c hc).1, (decimal_chars h c hc).2.1⟩
  · intro c hc
    simp only [String.toList_append, List.mem_append] at hc
    rcases hc with hc | hc
    · revert c; decide
    · exact ⟨(digit_ne (h.2.1 c hc)).1, (digit_ne (h.2.1 c hc)).2.1⟩

theorem asmArg_no_comma {i : Instruction} {a : AsmArg} {s : String} (h : asmArgText i a s) :
    ∀ c ∈ s.toList, c ≠ ',' := by
  cases a <;> simp only [asmArgText] at h
  case rd | rs1 | rs2 => exact fun c hc => (name_chars h c hc).1
  case sp => subst h; decide
  case csr | imm =>
    obtain ⟨n, -, h⟩ := h
    exact fun c hc => (number_chars h c hc).1
  case mem =>
    obtain ⟨z, d, r, -, h, g, rfl⟩ := h
    intro c hc
    simp only [String.toList_append, List.mem_append] at hc
    rcases hc with ((hc | hc) | hc) | hc
    · exact (number_chars h c hc).1
    · revert c; decide
    · exact (name_chars g c hc).1
    · revert c; decide
  case ptr =>
    obtain ⟨r, g, rfl⟩ := h
    intro c hc
    simp only [String.toList_append, List.mem_append] at hc
    rcases hc with (hc | hc) | hc
    · revert c; decide
    · exact (name_chars g c hc).1
    · revert c; decide
  case memSp =>
    obtain ⟨z, d, -, h, rfl⟩ := h
    intro c hc
    simp only [String.toList_append, List.mem_append] at hc
    rcases hc with hc | hc
    · exact (number_chars h c hc).1
    · revert c; decide

theorem asmArgs_no_comma {i : Instruction} {as : List AsmArg} {ss : List String} (h : asmArgTexts i as ss) :
    ∀ s ∈ ss, ∀ c ∈ s.toList, c ≠ ',' := by
  induction as generalizing ss with
  | nil => cases ss with
    | nil => simp
    | cons _ _ => exact h.elim
  | cons a as ih => cases ss with
    | nil => exact h.elim
    | cons s ss =>
      intro t ht
      rcases List.mem_cons.1 ht with rfl | ht
      · exact asmArg_no_comma h.1
      · exact ih h.2 t ht

theorem args_no_comma {i : Instruction} {as : List Arg} {ss : List String} (hp : ∀ a ∈ as, a.plain)
    (h : argTexts i as ss) : ∀ s ∈ ss, ∀ c ∈ s.toList, c ≠ ',' := by
  induction as generalizing ss with
  | nil => cases ss with
    | nil => simp
    | cons _ _ => exact h.elim
  | cons a as ih => cases ss with
    | nil => exact h.elim
    | cons s ss =>
      intro t ht
      rcases List.mem_cons.1 ht with rfl | ht
      · exact argText_no_comma (hp a (by simp)) h.1
      · exact ih (fun b hb => hp b (by simp [hb])) h.2 t ht

theorem commas_split (ss ts : List String) (hs : ∀ s ∈ ss, ∀ c ∈ s.toList, c ≠ ',')
    (ht : ∀ s ∈ ts, ∀ c ∈ s.toList, c ≠ ',') (hn : ss ≠ []) (hm : ts ≠ [])
    (h : commas ss = commas ts) : ss = ts := by
  induction ss generalizing ts with
  | nil => exact absurd rfl hn
  | cons s ss ih =>
    cases ts with
    | nil => exact absurd rfl hm
    | cons t ts =>
      have hc : (", ").toList = [',', ' '] := rfl
      cases ss with
      | nil =>
        cases ts with
        | nil => simpa [commas] using h
        | cons t' ts =>
          simp only [commas] at h
          exfalso
          refine hs s (by simp) ',' ?_ rfl
          rw [h]
          simp [String.toList_append, hc]
      | cons s' ss =>
        cases ts with
        | nil =>
          simp only [commas] at h
          exfalso
          refine ht t (by simp) ',' ?_ rfl
          rw [← h]
          simp [String.toList_append, hc]
        | cons t' ts =>
          simp only [commas] at h
          have h2 := congrArg String.toList h
          simp only [String.toList_append, List.append_assoc] at h2
          rw [hc] at h2
          obtain ⟨e1, e2⟩ := split_at ',' _ _ _ _ (hs s (by simp)) (ht t (by simp)) h2
          injection e2 with _ e2
          rw [string_ext e1, ih (t' :: ts) (fun x hx => hs x (by simp at hx ⊢; exact .inr hx))
            (fun x hx => ht x (by simp at hx ⊢; exact .inr hx)) (by simp) (by simp) (string_ext e2)]

theorem line_split {n m : String} {ss ts : List String} (hn : ∀ c ∈ n.toList, c ≠ ' ')
    (hm : ∀ c ∈ m.toList, c ≠ ' ') (hs : ∀ s ∈ ss, ∀ c ∈ s.toList, c ≠ ',')
    (ht : ∀ s ∈ ts, ∀ c ∈ s.toList, c ≠ ',') (h : line n ss = line m ts) : n = m ∧ ss = ts := by
  have hc : (" ").toList = [' '] := rfl
  cases ss with
  | nil =>
    cases ts with
    | nil => exact ⟨h, rfl⟩
    | cons t ts =>
      exfalso
      refine hn ' ' ?_ rfl
      have h : n = m ++ " " ++ commas (t :: ts) := h
      rw [h]
      simp [String.toList_append, hc]
  | cons s ss =>
    cases ts with
    | nil =>
      exfalso
      refine hm ' ' ?_ rfl
      have h : n ++ " " ++ commas (s :: ss) = m := h
      rw [← h]
      simp [String.toList_append, hc]
    | cons t ts =>
      have h : n ++ " " ++ commas (s :: ss) = m ++ " " ++ commas (t :: ts) := h
      have h2 := congrArg String.toList h
      simp only [String.toList_append, List.append_assoc] at h2
      rw [hc] at h2
      obtain ⟨e1, e2⟩ := split_at ' ' _ _ _ _ hn hm h2
      exact ⟨string_ext e1, commas_split _ _ hs ht (by simp) (by simp) (string_ext (by simpa using e2))⟩

/-! ## Operands that never agree -/

/-- No text is both. -/
def clash : Arg → AsmArg → Bool
  | .rs1, .ptr | .rs2, .ptr | .num1, .rd | .num1, .rs1 => true
  | .rs1, .mem => true
  | _, _ => false

/-- The lists differ in length, or somewhere the operands clash. -/
def clashes : List Arg → List AsmArg → Bool
  | [], [] => false
  | a :: as, b :: bs => clash a b || clashes as bs
  | _, _ => true

theorem name_first {o : Option Nat} {s : String} (h : isName o s) :
    ∃ c, s.toList.head? = some c ∧ 97 ≤ c.toNat := by
  obtain ⟨n, -, hn, rfl⟩ := h
  rcases lt32_cases n hn with h|h|h|h|h|h|h|h|h|h|h|h|h|h|h|h|h|h|h|h|h|h|h|h|h|h|h|h|h|h|h|h <;>
    subst h <;> exact ⟨_, rfl, by decide⟩

theorem decimal_first {s : String} {z : Int} (h : isDecimal s z) :
    ∃ c, s.toList.head? = some c ∧ c.toNat < 97 := by
  rcases h with ⟨-, h⟩ | ⟨-, cs, hs, h⟩
  · obtain ⟨h1, h2, -, -⟩ := h
    cases hc : s.toList with
    | nil => exact absurd hc h1
    | cons c cs =>
      refine ⟨c, rfl, ?_⟩
      obtain ⟨h3, h4⟩ := h2 c (by rw [hc]; simp)
      unfold digitVal at h4
      split at h4 <;> omega
  · rw [hs]; exact ⟨'-', rfl, by decide⟩

theorem clash_text {i : Instruction} {a : Arg} {b : AsmArg} {s : String} (h : clash a b = true)
    (ha : argText i a s) (hb : asmArgText i b s) : False := by
  have paren : ∀ {o s}, isName o s → '(' ∈ s.toList → False :=
    fun h hm => (name_chars h _ hm).2.1 rfl
  have num : ∀ {o s z}, isName o s → isDecimal s z → False := by
    intro o s z h h'
    obtain ⟨c, h1, h2⟩ := name_first h
    obtain ⟨d, h3, h4⟩ := decimal_first h'
    rw [h1] at h3
    injection h3 with h3
    subst h3
    omega
  cases a <;> cases b <;> simp only [clash, Bool.false_eq_true] at h <;> simp only [argText] at ha <;>
    simp only [asmArgText] at hb
  case rs1.ptr | rs2.ptr =>
    obtain ⟨r, -, rfl⟩ := hb
    exact paren ha (by simp [String.toList_append])
  case rs1.mem =>
    obtain ⟨z, d, r, -, -, -, rfl⟩ := hb
    exact paren ha (by simp [String.toList_append])
  case num1.rd | num1.rs1 =>
    obtain ⟨n, -, h⟩ := ha
    exact num hb h

theorem clashes_texts {i : Instruction} {as : List Arg} {bs : List AsmArg} {ss : List String}
    (h : clashes as bs = true) (ha : argTexts i as ss) (hb : asmArgTexts i bs ss) : False := by
  induction as generalizing bs ss with
  | nil =>
    cases bs with
    | nil => cases h
    | cons b bs => cases ss with
      | nil => exact hb
      | cons _ _ => exact ha
  | cons a as ih =>
    cases ss with
    | nil => exact ha
    | cons s ss =>
      cases bs with
      | nil => exact hb
      | cons b bs =>
        simp only [clashes, Bool.or_eq_true] at h
        rcases h with h | h
        · exact clash_text h ha.1 hb.1
        · exact ih h ha.2 hb.2

/-! ## The theorem -/

/-- The opcodes that print assembly language for some operands only, and `sspush`. -/
def special : OpcodeKind → Bool
  | .BaseI .JAL | .BaseI .SB | .BaseI .SH | .BaseI .SW | .BaseI .SD | .C .SW | .C .SD | .Zicfiss .SSPUSH
  | .C .ADDI4SPN => true
  | _ => false

theorem names_no_space (op : OpcodeKind) :
    (∀ c ∈ (printedName op).toList, c ≠ ' ') ∧ ∀ n ∈ asmNames op, ∀ c ∈ n.toList, c ≠ ' ' := by
  rcases op with o | o | o | o | o | o | o | o | o | o
  all_goals cases o
  all_goals decide

theorem never_assembly (op : OpcodeKind) (as : List Arg) (ha : args op = some as)
    (hp : printsAssembly op = false) (hs : special op = false) :
    printedName op ∉ asmNames op ∨ ∀ bs ∈ asmSyntax op, clashes as bs = true := by
  revert ha hp hs
  rcases op with o | o | o | o | o | o | o | o | o | o
  all_goals cases o
  all_goals intro ha hp hs
  all_goals first
    | (cases hp; done)
    | (cases hs; done)
    | (cases ha; done)
    | (injection ha with ha
       subst ha
       decide)

theorem two {i : Instruction} {a b : Arg} {ss : List String} (h : argTexts i [a, b] ss) :
    ∃ s t, ss = [s, t] ∧ argText i a s ∧ argText i b t := by
  match ss, h with
  | [s, t], h => exact ⟨s, t, rfl, h.1, h.2.1⟩

theorem three {i : Instruction} {a b c : Arg} {ss : List String} (h : argTexts i [a, b, c] ss) :
    ∃ s t u, ss = [s, t, u] ∧ argText i a s ∧ argText i b t ∧ argText i c u := by
  match ss, h with
  | [s, t, u], h => exact ⟨s, t, u, rfl, h.1, h.2.1, h.2.2.1⟩

theorem asm_one {i : Instruction} {a : AsmArg} {s : String} : asmArgTexts i [a] [s] ↔ asmArgText i a s := by
  simp [asmArgTexts]

theorem asm_two {i : Instruction} {a b : AsmArg} {s t : String} :
    asmArgTexts i [a, b] [s, t] ↔ asmArgText i a s ∧ asmArgText i b t := by simp [asmArgTexts]

theorem asm_three {i : Instruction} {a b c : AsmArg} {s t u : String} :
    asmArgTexts i [a, b, c] [s, t, u] ↔ asmArgText i a s ∧ asmArgText i b t ∧ asmArgText i c u := by
  simp [asmArgTexts]

/-! ## Operands that agree sometimes -/

theorem digitsVal_mono (cs : List Char) : digitsVal 10 cs ≤ digitsVal 16 cs := by
  suffices H : ∀ (k : Nat) (cs : List Char), cs.length = k → digitsVal 10 cs ≤ digitsVal 16 cs from H _ cs rfl
  intro k
  induction k with
  | zero => intro cs hk; rw [List.length_eq_zero_iff.1 hk]; exact Nat.le_refl _
  | succ k ih =>
    intro cs hk
    obtain ⟨ds, c, rfl⟩ : ∃ ds c, cs = ds ++ [c] :=
      ⟨cs.dropLast, cs.getLast (by rintro rfl; simp at hk), (List.dropLast_concat_getLast _).symm⟩
    have := ih ds (by simpa using hk)
    rw [digitsVal_append, digitsVal_append]
    omega

/-- Digits that mean the same in both bases are one decimal digit. -/
theorem digits_agree {cs : List Char} {n : Nat} (h : isNumeral 16 cs n) (h' : isNumeral 10 cs n) : n < 10 := by
  obtain ⟨hne, -, -, h1⟩ := h
  obtain ⟨-, hd, -, h2⟩ := h'
  obtain ⟨ds, c, rfl⟩ : ∃ ds c, cs = ds ++ [c] :=
    ⟨cs.dropLast, cs.getLast hne, (List.dropLast_concat_getLast hne).symm⟩
  have hc := (hd c (by simp)).2
  have := digitsVal_mono ds
  rw [digitsVal_append] at h1 h2
  omega

theorem single_digit {cs : List Char} {n : Nat} (h : isNumeral 16 cs n) (hn : n < 10) : isNumeral 10 cs n := by
  have e := numeral_eq 16 (by omega) (by omega) cs n h
  rw [Nat.toDigits_of_lt_base (by omega)] at e
  have e' : cs = Nat.toDigits 10 n := by rw [Nat.toDigits_of_lt_base hn, e]
  rw [e']
  exact (toDigits_isNumeral 10 (by omega) (by omega) n).1

/-- No decimal numeral begins with `0x`. -/
theorem hexText_not_decimal {d : String} {z : Int} (h : isDecimal ("0x" ++ d) z) : False := by
  have hl : ("0x" ++ d).toList = '0' :: 'x' :: d.toList := by
    rw [String.toList_append]; rfl
  rcases h with ⟨-, h⟩ | ⟨-, cs, hs, -⟩
  · have := h.2.2.1 (by rw [hl]; rfl)
    rw [hl] at this
    simp at this
  · rw [hl] at hs
    have := (List.cons.inj hs).1
    revert this; decide

theorem hex_inj {d : String} {n m : Nat} (h : isHex d n) (h' : isHex d m) : n = m := h.2.2.2.symm.trans h'.2.2.2

/-- The offset of `jal`: two's complement is read as the value when it is not negative. -/
theorem immHex_asm {i : Instruction} {s : String} {z : Int} (hz : i.imm = some z) (hb : z < 2 ^ 32)
    (h : argText i .immHex s) : asmArgText i .imm s ↔ 0 ≤ z := by
  simp only [argText] at h
  obtain ⟨y, d, e, h, rfl⟩ := h
  rw [hz] at e
  cases e
  constructor
  · rintro ⟨y, e, h | ⟨n, d', e', h', hs⟩⟩
    · exact (hexText_not_decimal h).elim
    · rw [hz] at e
      cases e
      omega
  · intro h0
    refine ⟨z, hz, .inr ⟨z.toNat, d, by omega, ?_, rfl⟩⟩
    have : (z % 2 ^ 32).toNat = z.toNat := by omega
    rw [isHex32, this] at h
    exact h

/-- The offset of `c.addi4spn`: hexadecimal digits are read as the value when there is one decimal digit. -/
theorem immHexBare_asm {i : Instruction} {s : String} {z : Int} (hz : i.imm = some z) (h0 : 0 ≤ z)
    (hb : z < 2 ^ 32) (h : argText i .immHexBare s) : asmArgText i .imm s ↔ z < 10 := by
  simp only [argText] at h
  obtain ⟨y, e, h⟩ := h
  rw [hz] at e
  cases e
  have hm : (z % 2 ^ 32).toNat = z.toNat := by omega
  rw [isHex32, hm] at h
  constructor
  · rintro ⟨y, e, h' | ⟨n, d', e', h', rfl⟩⟩
    · rw [hz] at e
      cases e
      rcases h' with ⟨-, h'⟩ | ⟨h', -⟩
      · have := digits_agree h h'
        omega
      · omega
    · have := h.2.1 'x' (by simp [String.toList_append])
      exact absurd this.1 (by decide)
  · intro hlt
    exact ⟨z, hz, .inl (.inl ⟨h0, single_digit h (by omega)⟩)⟩

/-- Registers swapped. -/
theorem swapped_asm {i : Instruction} {s t : String} (hs : argText i .rs1 s) (ht : argText i .immAt2 t) :
    asmArgTexts i [.rs2, .mem] [s, t] ↔ i.rs1 = i.rs2 := by
  rw [asm_two]
  constructor
  · exact fun h => name_inj hs h.1
  · intro e
    refine ⟨?_, ?_⟩
    · show isName i.rs2 s
      rw [← e]; exact hs
    · simp only [argText] at ht
      obtain ⟨z, d, r, hz, h, g, rfl⟩ := ht
      exact ⟨z, d, r, hz, .inl h, e ▸ g, rfl⟩

/-! ## The theorem -/

theorem jal_range {i : Instruction} (h : Decoded i) (ho : i.opc = .BaseI .JAL) :
    ∀ z, i.imm = some z → z < 2 ^ 32 := by
  intro z hz
  rcases h with ⟨w, isa, h⟩ | ⟨w, isa, h⟩
  · obtain ⟨r, hr, h3⟩ := C16_immediate_range32 w isa i z h hz
    rw [ho] at hr; cases hr
    simp only [immRange32] at h3
    omega
  · obtain ⟨-, -, h4, -⟩ := C27_metadata16 w isa i h
    rw [ho] at h4; simp at h4

theorem addi4spn_range {i : Instruction} (h : Decoded i) (ho : i.opc = .C .ADDI4SPN) :
    ∀ z, i.imm = some z → 0 ≤ z ∧ z < 2 ^ 32 := by
  intro z hz
  rcases h with ⟨w, isa, h⟩ | ⟨w, isa, h⟩
  · have := C27_metadata32 w isa i h
    rw [ho] at this; simp at this
  · have := C16_immediate_range16 w isa i z h hz
    rw [ho] at this
    simp only [immRange16] at this
    omega

/-- `sspush` shows the constant `rs1`, which is never the register it pushes. -/
theorem sspush_regs {i : Instruction} (h : Decoded i) (ho : i.opc = .Zicfiss .SSPUSH) : ¬ i.rs1 = i.rs2 := by
  rcases h with ⟨w, isa, h⟩ | ⟨w, isa, h⟩
  · obtain ⟨r, hr, -, h1, h2⟩ := C11_registers32 w isa i h
    have ha := (C07_accepts32_exact w isa i.opc).1 ⟨i, h, rfl⟩
    rw [ho] at hr ha
    cases hr
    rw [h1, h2]
    simp only [rs132, rs232, accepts32] at ha ⊢
    have e : fld w.toNat 24 20 = fld w.toNat 31 20 % 32 := by
      simp only [fld]; omega
    intro hc
    injection hc with hc
    obtain ⟨-, -, -, h3⟩ := ha
    rcases h3 with h3 | h3 <;> rw [h3] at e <;> omega
  · obtain ⟨-, -, h4, -⟩ := C27_metadata16 w isa i h
    rw [ho] at h4; simp at h4

theorem assembly_iff {i : Instruction} {as : List Arg} {ss : List String} (ha : args i.opc = some as)
    (ht : argTexts i as ss) : isAssembly i (line (printedName i.opc) ss) ↔
      printedName i.opc ∈ asmNames i.opc ∧ ∃ bs ∈ asmSyntax i.opc, asmArgTexts i bs ss := by
  constructor
  · rintro ⟨n, hn, bs, hb, ts, h, e⟩
    obtain ⟨rfl, rfl⟩ := line_split (names_no_space i.opc).1 ((names_no_space i.opc).2 n hn)
      (args_no_comma (args_plain _ _ ha) ht) (asmArgs_no_comma h) e
    exact ⟨hn, bs, hb, h⟩
  · rintro ⟨hn, bs, hb, h⟩
    exact ⟨_, hn, bs, hb, ss, h, rfl⟩

/-- The offset of `jal` as text. -/
theorem jal_asm {i : Instruction} {ss : List String} (hb : ∀ z, i.imm = some z → z < 2 ^ 32)
    (ht : argTexts i [.rd, .immHex] ss) :
    asmArgTexts i [.rd, .imm] ss ↔ ∃ z, i.imm = some z ∧ 0 ≤ z := by
  obtain ⟨s, t, rfl, h1, h2⟩ := two ht
  have hi : ∃ z, i.imm = some z := by
    simp only [argText] at h2
    obtain ⟨z, d, e, -⟩ := h2
    exact ⟨z, e⟩
  obtain ⟨z, hz⟩ := hi
  rw [asm_two, immHex_asm hz (hb z hz) h2]
  refine ⟨fun h => ⟨z, hz, h.2⟩, ?_⟩
  rintro ⟨y, e, h⟩
  rw [hz] at e
  cases e
  exact ⟨h1, h⟩

/-- The offset of `c.addi4spn` as text. -/
theorem addi4spn_asm {i : Instruction} {ss : List String} (hb : ∀ z, i.imm = some z → 0 ≤ z ∧ z < 2 ^ 32)
    (ht : argTexts i [.rd, .lit "sp", .immHexBare] ss) :
    asmArgTexts i [.rd, .sp, .imm] ss ↔ ∃ z, i.imm = some z ∧ z < 10 := by
  obtain ⟨s, t, u, rfl, h1, h2, h3⟩ := three ht
  have hi : ∃ z, i.imm = some z := by
    simp only [argText] at h3
    obtain ⟨z, e, -⟩ := h3
    exact ⟨z, e⟩
  obtain ⟨z, hz⟩ := hi
  rw [asm_three, immHexBare_asm hz (hb z hz).1 (hb z hz).2 h3]
  refine ⟨fun h => ⟨z, hz, h.2.2⟩, ?_⟩
  rintro ⟨y, e, h⟩
  rw [hz] at e
  cases e
  exact ⟨h1, h2, h⟩

/-- Base and source swapped. -/
theorem store_asm {i : Instruction} {ss : List String} (ht : argTexts i [.rs1, .immAt2] ss) :
    asmArgTexts i [.rs2, .mem] ss ↔ i.rs1 = i.rs2 := by
  obtain ⟨s, t, rfl, h1, h2⟩ := two ht
  exact swapped_asm h1 h2

/-- `rs1` for `rs2`. -/
theorem sspush_asm {i : Instruction} {ss : List String} (ht : argTexts i [.rs1] ss) :
    asmArgTexts i [.rs2] ss ↔ i.rs1 = i.rs2 := by
  match ss, ht with
  | [s], ht =>
    rw [asm_one]
    refine ⟨fun h => name_inj ht.1 h, fun e => ?_⟩
    show isName i.rs2 s
    rw [← e]; exact ht.1

theorem textIsAssembly_other {i : Instruction} (h : special i.opc = false) :
    textIsAssembly i ↔ printsAssembly i.opc = true := by
  unfold textIsAssembly
  revert h
  generalize i.opc = op
  intro h
  rcases op with o | o | o | o | o | o | o | o | o | o
  all_goals cases o
  all_goals first
    | exact Iff.rfl
    | (cases h; done)

/-- C72, assembly language: exactly these texts are. -/
theorem C72_assembly (i : Instruction) (h : Decoded i) (s : String) (hs : i.fmt = .ok s) :
    isAssembly i s ↔ textIsAssembly i := by
  obtain ⟨as, ss, ha, ht, rfl⟩ := (C33_text i h s).1 hs
  cases hsp : special i.opc with
  | false =>
    rw [textIsAssembly_other hsp]
    cases hp : printsAssembly i.opc with
    | true => simpa using C56_assembly_partial i h hp _ hs
    | false =>
      rw [assembly_iff ha ht]
      simp only [Bool.false_eq_true, iff_false]
      rintro ⟨hn, bs, hb, ht'⟩
      rcases never_assembly i.opc as ha hp hsp with h1 | h1
      · exact h1 hn
      · exact clashes_texts (h1 bs hb) ht ht'
  | true =>
    have hj := jal_range h
    have h4 := addi4spn_range h
    have hss := sspush_regs h
    rw [assembly_iff ha ht]
    unfold textIsAssembly
    clear h hs
    revert hsp ha hj h4 hss
    generalize i.opc = op
    intro ha hsp hj h4 hss
    rcases op with o | o | o | o | o | o | o | o | o | o
    all_goals cases o
    all_goals first
      | (cases hsp; done)
      | (injection ha with ha
         subst ha
         simp only [asmSyntax, List.mem_singleton, exists_eq_left]
         rw [and_iff_right (by decide)]
         first
           | exact jal_asm (hj rfl) ht
           | exact addi4spn_asm (h4 rfl) ht
           | exact store_asm ht
           | (rw [sspush_asm ht]
              simp only [printsAssembly, Bool.false_eq_true, iff_false]
              exact hss rfl))

/-- A store with one register. -/
example : ∃ i, Decoded i ∧ i.fmt = .ok "sw a1, 8(a1)" ∧ textIsAssembly i :=
  ⟨_, .inl ⟨0x00b5a423, .Rv32, rfl⟩, rfl, rfl⟩
/-- A store with two. -/
example : ∃ i, Decoded i ∧ i.fmt = .ok "sw a1, 8(a2)" ∧ ¬ textIsAssembly i :=
  ⟨_, .inl ⟨0x00c5a423, .Rv32, rfl⟩, rfl, (by decide : ¬ (some 11 = some 12))⟩
example : ∃ i, Decoded i ∧ i.fmt = .ok "C.addi4spn a0, sp, 8" ∧ textIsAssembly i :=
  ⟨_, .inr ⟨0x0028, .Rv32, rfl⟩, rfl, ⟨_, rfl, by decide⟩⟩
example : ∃ i, Decoded i ∧ i.fmt = .ok "C.addi4spn a0, sp, 10" ∧ ¬ textIsAssembly i :=
  ⟨_, .inr ⟨0x0808, .Rv32, rfl⟩, rfl, by rintro ⟨z, h, h'⟩; cases h; exact absurd h' (by decide)⟩

/-! ## The documentation -/

theorem docNames_no_space (l : DocLine) (hl : l ∈ docLines) : ∀ n ∈ docNames l.name, ∀ c ∈ n.toList, c ≠ ' ' := by
  revert l
  decide

theorem doc_iff {l : DocLine} (hl : l ∈ docLines) {i : Instruction} {as : List Arg} {ss : List String}
    (ha : args i.opc = some as) (ht : argTexts i as ss) :
    isDocText l i (line (printedName i.opc) ss) ↔
      printedName i.opc ∈ docNames l.name ∧ asmArgTexts i l.args ss := by
  constructor
  · rintro ⟨n, hn, ts, h, e⟩
    obtain ⟨rfl, rfl⟩ := line_split (names_no_space i.opc).1 (docNames_no_space l hl n hn)
      (args_no_comma (args_plain _ _ ha) ht) (asmArgs_no_comma h) e
    exact ⟨hn, h⟩
  · rintro ⟨hn, h⟩
    exact ⟨_, hn, ss, h, rfl⟩

/-- The opcodes printed as documented for some operands only. -/
def specialDoc : List OpcodeKind := [.BaseI .JAL, .BaseI .SW, .C .SW, .C .ADDI4SPN]

theorem never_doc (l : DocLine) (hl : l ∈ docLines) (hp : l.opc ∈ printedOtherwise) (hs : l.opc ∉ specialDoc)
    (as : List Arg) (ha : args l.opc = some as) : clashes as l.args = true := by
  have key : (args l.opc).all (fun as => clashes as l.args) = true := by
    clear ha
    revert l
    decide
  rw [ha] at key
  exact key

theorem textIsDocumented_other {i : Instruction} (h : i.opc ∉ specialDoc) :
    textIsDocumented i ↔ i.opc ∉ printedOtherwise := by
  unfold textIsDocumented
  revert h
  generalize i.opc = op
  intro h
  rcases op with o | o | o | o | o | o | o | o | o | o
  all_goals cases o
  all_goals first
    | exact Iff.rfl
    | exact absurd (by decide) h

theorem special_line (l : DocLine) (hl : l ∈ docLines) (hs : l.opc ∈ specialDoc) :
    printedName l.opc ∈ docNames l.name ∧ asmSyntax l.opc = [l.args] ∧ special l.opc = true := by
  revert l
  decide

theorem textIsDocumented_special {i : Instruction} (h : i.opc ∈ specialDoc) :
    textIsDocumented i ↔ textIsAssembly i := by
  unfold textIsDocumented textIsAssembly
  revert h
  generalize i.opc = op
  intro h
  simp only [specialDoc, List.mem_cons, List.not_mem_nil, or_false] at h
  rcases h with rfl | rfl | rfl | rfl <;> exact Iff.rfl

/-- C72, the documentation: of the opcodes it shows, exactly these texts are as shown. -/
theorem C72_documentation (l : DocLine) (hl : l ∈ docLines) (i : Instruction) (h : Decoded i)
    (ho : i.opc = l.opc) (s : String) (hs : i.fmt = .ok s) : isDocText l i s ↔ textIsDocumented i := by
  by_cases hsp : i.opc ∈ specialDoc
  · rw [textIsDocumented_special hsp, ← C72_assembly i h s hs]
    obtain ⟨as, ss, ha, ht, rfl⟩ := (C33_text i h s).1 hs
    rw [doc_iff hl ha ht, assembly_iff ha ht]
    obtain ⟨h1, h2, h3⟩ := special_line l hl (ho ▸ hsp)
    rw [ho, h2]
    simp only [List.mem_singleton, exists_eq_left]
    rw [and_iff_right h1, and_iff_right]
    clear h2 h1 hl
    revert h3
    generalize l.opc = op
    intro h3
    rcases op with o | o | o | o | o | o | o | o | o | o
    all_goals cases o
    all_goals first
      | (cases h3; done)
      | decide
  · rw [textIsDocumented_other hsp]
    by_cases hp : i.opc ∈ printedOtherwise
    · obtain ⟨as, ss, ha, ht, rfl⟩ := (C33_text i h s).1 hs
      rw [doc_iff hl ha ht]
      simp only [hp, not_true_eq_false, iff_false]
      rintro ⟨-, h'⟩
      exact clashes_texts (never_doc l hl (ho ▸ hp) (ho ▸ hsp) as (ho ▸ ha)) ht h'
    · obtain ⟨t, h1, h2⟩ := C70_text_partial l hl (ho ▸ hp) i h ho
      rw [hs] at h1
      cases h1
      simp [hp, h2]

end Raki
