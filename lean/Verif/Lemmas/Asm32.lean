import Verif.Lemmas.Decode32
import Verif.Lemmas.Official
import Verif.Spec.Asm
/-!
# The assembler is inverse to the reading of the fields (32-bit)
-/

namespace Raki

open Spec

theorem ofI_lt (n : Nat) (z : Int) : ofI n z < 2 ^ n := by
  have h2 : (0 : Int) < 2 ^ n := Int.pow_pos (by decide)
  have h := Int.emod_lt_of_pos z h2
  have h0 := Int.emod_nonneg z (Int.ne_of_gt h2)
  have : ((ofI n z : Nat) : Int) < ((2 ^ n : Nat) : Int) := by
    rw [ofI, Int.toNat_of_nonneg h0]; simpa using h
  exact Int.ofNat_lt.1 this

/-- Two's complement and back, for the widths that occur. -/
theorem sext_ofI6 (z : Int) (h : -2 ^ 5 ≤ z ∧ z < 2 ^ 5) : sext 6 (ofI 6 z) = z := by
  unfold sext ofI; split <;> omega
theorem sext_ofI9 (z : Int) (h : -2 ^ 8 ≤ z ∧ z < 2 ^ 8) : sext 9 (ofI 9 z) = z := by
  unfold sext ofI; split <;> omega
theorem sext_ofI10 (z : Int) (h : -2 ^ 9 ≤ z ∧ z < 2 ^ 9) : sext 10 (ofI 10 z) = z := by
  unfold sext ofI; split <;> omega
theorem sext_ofI12 (z : Int) (h : -2 ^ 11 ≤ z ∧ z < 2 ^ 11) : sext 12 (ofI 12 z) = z := by
  unfold sext ofI; split <;> omega
theorem sext_ofI13 (z : Int) (h : -2 ^ 12 ≤ z ∧ z < 2 ^ 12) : sext 13 (ofI 13 z) = z := by
  unfold sext ofI; split <;> omega
theorem sext_ofI18 (z : Int) (h : -2 ^ 17 ≤ z ∧ z < 2 ^ 17) : sext 18 (ofI 18 z) = z := by
  unfold sext ofI; split <;> omega
theorem sext_ofI21 (z : Int) (h : -2 ^ 20 ≤ z ∧ z < 2 ^ 20) : sext 21 (ofI 21 z) = z := by
  unfold sext ofI; split <;> omega

theorem ofI_sext (n x : Nat) (hx : x < 2 ^ n) : ofI n (sext n x) = x := by
  have e : ((x : Int) % 2 ^ n).toNat = x := by
    have : (x : Int) % 2 ^ n = ((x % 2 ^ n : Nat) : Int) := by simp
    rw [this, Nat.mod_eq_of_lt hx]; rfl
  unfold sext ofI
  split
  · exact e
  · rw [Int.sub_emod_right]; exact e

theorem ofI_nat (n x : Nat) (hx : x < 2 ^ n) : ofI n (x : Int) = x := by
  have : (x : Int) % 2 ^ n = ((x % 2 ^ n : Nat) : Int) := by simp
  rw [ofI, this, Nat.mod_eq_of_lt hx]; rfl

/-- Sizes of the entries of the opcode tables. -/
theorem row_bounds (op : OpcodeKind) (r : Row) (h : row32 op = some r) :
    r.major < 128 ∧ r.f3 < 8 ∧ r.code < 4096 ∧
    (r.fmt = .R ∨ r.fmt = .ShW ∨ r.fmt = .SsPush ∨ r.fmt = .SfVma → r.code < 128) ∧
    (r.fmt = .ShX → r.code < 128 ∧ r.code % 2 = 0) ∧
    (r.fmt = .Amo ∨ r.fmt = .Lr ∨ r.fmt = .SsAmo → r.code < 32) := by
  rcases op with o | o | o | o | o | o | o | o | o | o
  all_goals cases o
  all_goals simp [row32] at h
  all_goals subst h
  all_goals decide


theorem word_fields {m rd f3 rs1 rs2 f7 w : Nat} (hw : w = word m rd f3 rs1 rs2 f7)
    (hm : m < 128) (hrd : rd < 32) (hf3 : f3 < 8) (hrs1 : rs1 < 32) (hrs2 : rs2 < 32)
    (hf7 : f7 < 128) :
    w < 2 ^ 32 ∧ fld w 6 0 = m ∧ fld w 11 7 = rd ∧ fld w 14 12 = f3 ∧ fld w 19 15 = rs1 ∧
      fld w 24 20 = rs2 ∧ fld w 31 25 = f7 := by
  simp only [word] at hw
  simp only [fld]
  refine ⟨?_, ?_, ?_, ?_, ?_, ?_, ?_⟩ <;> omega

theorem word_of_fields (w : Nat) (hw : w < 2 ^ 32) :
    w = word (fld w 6 0) (fld w 11 7) (fld w 14 12) (fld w 19 15) (fld w 24 20) (fld w 31 25) := by
  simp only [word, fld]
  omega

theorem wordI_eq (m rd f3 rs1 top : Nat) :
    wordI m rd f3 rs1 top = word m rd f3 rs1 (top % 32) (top / 32) := by
  simp only [wordI, word]; omega

theorem wordU_eq (m rd u : Nat) : m + rd * 2 ^ 7 + u * 2 ^ 12
    = word m rd (u % 8) (u / 8 % 32) (u / 256 % 32) (u / 8192) := by
  simp only [word]; omega

theorem wordJ_eq (m rd a b c d : Nat) (_hb : b < 2) (_hc : c < 1024) :
    m + rd * 2 ^ 7 + a * 2 ^ 12 + b * 2 ^ 20 + c * 2 ^ 21 + d * 2 ^ 31
    = word m rd (a % 8) (a / 8) (b + c % 16 * 2) (c / 16 + d * 64) := by
  simp only [word]; omega

/-- The other fields in use, in terms of the six standard ones. -/
theorem fld_derived (w : Nat) :
    fld w 31 20 = fld w 31 25 * 32 + fld w 24 20 ∧
    fld w 31 27 = fld w 31 25 / 4 ∧
    fld w 31 26 = fld w 31 25 / 2 ∧
    fld w 26 25 = fld w 31 25 % 4 ∧
    fld w 25 20 = fld w 31 25 % 2 * 32 + fld w 24 20 ∧
    fld w 31 31 = fld w 31 25 / 64 ∧
    fld w 30 25 = fld w 31 25 % 64 ∧
    fld w 7 7 = fld w 11 7 % 2 ∧
    fld w 11 8 = fld w 11 7 / 2 ∧
    fld w 31 12 = fld w 31 25 * 8192 + fld w 24 20 * 256 + fld w 19 15 * 8 + fld w 14 12 ∧
    fld w 19 12 = fld w 19 15 * 8 + fld w 14 12 ∧
    fld w 20 20 = fld w 24 20 % 2 ∧
    fld w 30 21 = fld w 31 25 % 64 * 16 + fld w 24 20 / 2 := by
  simp only [fld]
  refine ⟨?_, ?_, ?_, ?_, ?_, ?_, ?_, ?_, ?_, ?_, ?_, ?_, ?_⟩ <;> omega

theorem bounds6 (w : Nat) : fld w 6 0 < 128 ∧ fld w 11 7 < 32 ∧ fld w 14 12 < 8 ∧
    fld w 19 15 < 32 ∧ fld w 24 20 < 32 ∧ fld w 31 25 < 128 :=
  ⟨fld_lt w 6 0, fld_lt w 11 7, fld_lt w 14 12, fld_lt w 19 15, fld_lt w 24 20, fld_lt w 31 25⟩

theorem piecesB (u : Nat) (h : u < 2 ^ 13) (h2 : u % 2 = 0) :
    u = fld u 12 12 * 2 ^ 12 + fld u 11 11 * 2 ^ 11 + fld u 10 5 * 2 ^ 5 + fld u 4 1 * 2 := by
  simp only [fld]; omega

theorem piecesJ (u : Nat) (h : u < 2 ^ 21) (h2 : u % 2 = 0) :
    u = fld u 20 20 * 2 ^ 20 + fld u 19 12 * 2 ^ 12 + fld u 11 11 * 2 ^ 11 + fld u 10 1 * 2 := by
  simp only [fld]; omega

theorem rejoinB {a b c d : Nat} (hb : b < 2) (hc : c < 64) :
    (a * 2 ^ 6 + c) / 64 * 2 ^ 12 + (d * 2 + b) % 2 * 2 ^ 11 + (a * 2 ^ 6 + c) % 64 * 2 ^ 5
      + (d * 2 + b) / 2 * 2 = a * 2 ^ 12 + b * 2 ^ 11 + c * 2 ^ 5 + d * 2 := by
  omega

theorem rejoinJ {a b c d : Nat} (hc : c < 2) (hd : d < 1024) :
    (d / 16 + a * 64) / 64 * 2 ^ 20 + (b / 8 * 8 + b % 8) * 2 ^ 12 + (c + d % 16 * 2) % 2 * 2 ^ 11
      + ((d / 16 + a * 64) % 64 * 16 + (c + d % 16 * 2) / 2) * 2
      = a * 2 ^ 20 + b * 2 ^ 12 + c * 2 ^ 11 + d * 2 := by
  omega

theorem fieldsB {u a b c d : Nat} (h : u = a * 2 ^ 12 + b * 2 ^ 11 + c * 2 ^ 5 + d * 2)
    (ha : a < 2) (hb : b < 2) (hc : c < 64) (hd : d < 16) :
    fld u 12 12 = a ∧ fld u 11 11 = b ∧ fld u 10 5 = c ∧ fld u 4 1 = d := by
  simp only [fld]
  refine ⟨?_, ?_, ?_, ?_⟩ <;> omega

theorem fieldsJ {u a b c d : Nat} (h : u = a * 2 ^ 20 + b * 2 ^ 12 + c * 2 ^ 11 + d * 2)
    (ha : a < 2) (hb : b < 256) (hc : c < 2) (hd : d < 1024) :
    fld u 20 20 = a ∧ fld u 19 12 = b ∧ fld u 11 11 = c ∧ fld u 10 1 = d := by
  simp only [fld]
  refine ⟨?_, ?_, ?_, ?_⟩ <;> omega

set_option linter.unusedSimpArgs false

/-- From the six standard fields of a word, the fixed bits and the operands. -/
syntax "from_fields " ident term : tactic
macro_rules
  | `(tactic| from_fields $w $h) => `(tactic| (
      obtain ⟨hlt, e60, e117, e1412, e1915, e2420, e3125⟩ := $h
      obtain ⟨d1, d2, d3, d4, d5, d6, d7, d8, d9, d10, d11, d12, d13⟩ := fld_derived $w
      simp only [e60, e117, e1412, e1915, e2420, e3125] at d1 d2 d3 d4 d5 d6 d7 d8 d9 d10 d11 d12 d13
      simp only [fixed32, rd32, rs132, rs232, imm32, immI, immS, immB, immU, immJ,
        Option.some.injEq, e60, e117, e1412, e1915, e2420, e3125, d1, d2, d3, d4, d5, d6, d7, d8, d9,
        d10, d11, d12, d13, hlt, true_and, and_true]))

/-- The assembled word has the fixed bits of the row and the given operands. -/
theorem encode32_spec (isa : Isa) (op : OpcodeKind) (r : Row) (i : Instruction)
    (hr : row32 op = some r) (ho : operands32 isa r.fmt i) (w : Nat)
    (hw : w = encode32 r (i.rd.getD 0) (i.rs1.getD 0) (i.rs2.getD 0) (i.imm.getD 0)) :
    w < 2 ^ 32 ∧ fixed32 isa w r ∧ rd32 w r.fmt = i.rd ∧ rs132 w r.fmt = i.rs1 ∧
      rs232 w r.fmt = i.rs2 ∧ imm32 isa w r.fmt = i.imm := by
  obtain ⟨b1, b2, b3, b4, b5, b6⟩ := row_bounds op r hr
  clear hr
  obtain ⟨f, major, f3, code⟩ := r
  obtain ⟨opc, rd, rs1, rs2, imm, ifmt, ic⟩ := i
  simp only at b1 b2 b3 b4 b5 b6 ho hw ⊢
  cases f
  case R =>
    obtain ⟨⟨a, rfl, ha⟩, ⟨b, rfl, hb⟩, ⟨c, rfl, hc⟩, rfl⟩ := ho
    have := b4 (by simp)
    simp only [encode32, Option.getD_some] at hw
    from_fields w word_fields hw b1 ha b2 hb hc this
  case I =>
    obtain ⟨⟨a, rfl, ha⟩, ⟨b, rfl, hb⟩, rfl, ⟨z, rfl, hz⟩⟩ := ho
    have hu := ofI_lt 12 z
    have hs := sext_ofI12 z (by simp only [immRange32] at hz; omega)
    simp only [encode32, Option.getD_some, wordI_eq] at hw
    from_fields w word_fields hw b1 ha b2 hb (by omega) (by omega)
    rw [show ofI 12 z / 32 * 32 + ofI 12 z % 32 = ofI 12 z by omega, hs]
  case S =>
    obtain ⟨rfl, ⟨b, rfl, hb⟩, ⟨c, rfl, hc⟩, ⟨z, rfl, hz⟩⟩ := ho
    have hu := ofI_lt 12 z
    have hs := sext_ofI12 z (by simp only [immRange32] at hz; omega)
    simp only [encode32, Option.getD_some] at hw
    have e : fld (ofI 12 z) 11 5 * 2 ^ 5 + fld (ofI 12 z) 4 0 = ofI 12 z := by
      simp only [fld]; omega
    from_fields w word_fields hw b1 (fld_lt _ _ _) b2 hb hc (fld_lt _ _ _)
    rw [e, hs]
  case B =>
    obtain ⟨rfl, ⟨b, rfl, hb⟩, ⟨c, rfl, hc⟩, ⟨z, rfl, hz⟩⟩ := ho
    have hu := ofI_lt 13 z
    have h2 : ofI 13 z % 2 = 0 := by simp only [immRange32] at hz; simp only [ofI]; omega
    have hs := sext_ofI13 z (by simp only [immRange32] at hz; omega)
    simp only [encode32, Option.getD_some] at hw
    have p := piecesB _ hu h2
    have q1 := fld_lt (ofI 13 z) 12 12
    have q2 := fld_lt (ofI 13 z) 11 11
    have q3 := fld_lt (ofI 13 z) 10 5
    have q4 := fld_lt (ofI 13 z) 4 1
    from_fields w word_fields hw b1 (by omega) b2 hb hc (by omega)
    exact (congrArg (sext 13) ((rejoinB q2 q3).trans p.symm)).trans hs
  case U =>
    obtain ⟨⟨a, rfl, ha⟩, rfl, rfl, ⟨z, rfl, hz⟩⟩ := ho
    simp only [immRange32] at hz
    have e : ((ofI 20 z : Nat) : Int) = z := by simp only [ofI]; omega
    have hu := ofI_lt 20 z
    simp only [encode32, Option.getD_some, wordU_eq] at hw
    from_fields w word_fields hw b1 ha (by omega) (by omega) (by omega) (by omega)
    omega
  case J =>
    obtain ⟨⟨a, rfl, ha⟩, rfl, rfl, ⟨z, rfl, hz⟩⟩ := ho
    have hu := ofI_lt 21 z
    have h2 : ofI 21 z % 2 = 0 := by simp only [immRange32] at hz; simp only [ofI]; omega
    have hs := sext_ofI21 z (by simp only [immRange32] at hz; omega)
    simp only [encode32, Option.getD_some] at hw
    rw [wordJ_eq _ _ _ _ _ _ (fld_lt _ _ _) (fld_lt _ _ _)] at hw
    have p := piecesJ _ hu h2
    have q1 := fld_lt (ofI 21 z) 20 20
    have q2 := fld_lt (ofI 21 z) 19 12
    have q3 := fld_lt (ofI 21 z) 11 11
    have q4 := fld_lt (ofI 21 z) 10 1
    from_fields w word_fields hw b1 ha (by omega) (by omega) (by omega) (by omega)
    exact (congrArg (sext 21) ((rejoinJ q3 q4).trans p.symm)).trans hs
  case ShX =>
    obtain ⟨⟨a, rfl, ha⟩, ⟨b, rfl, hb⟩, rfl, ⟨z, rfl, hz⟩⟩ := ho
    obtain ⟨h7, he⟩ := b5 rfl
    have hu := ofI_lt 6 z
    simp only [encode32, Option.getD_some, wordI_eq] at hw
    cases isa
    · simp only [immRange32] at hz
      have e : ((ofI 6 z : Nat) : Int) = z := by simp only [ofI]; omega
      from_fields w word_fields hw b1 ha b2 hb (by omega) (by omega)
      omega
    · simp only [immRange32] at hz
      have e : ((ofI 6 z : Nat) : Int) = z := by simp only [ofI]; omega
      from_fields w word_fields hw b1 ha b2 hb (by omega) (by omega)
      omega
  case ShW =>
    obtain ⟨⟨a, rfl, ha⟩, ⟨b, rfl, hb⟩, rfl, ⟨z, rfl, hz⟩⟩ := ho
    have := b4 (by simp)
    have hu := ofI_lt 6 z
    simp only [immRange32] at hz
    have e : ((ofI 6 z : Nat) : Int) = z := by simp only [ofI]; omega
    simp only [encode32, Option.getD_some, wordI_eq] at hw
    from_fields w word_fields hw b1 ha b2 hb (by omega) (by omega)
    omega
  case Amo =>
    obtain ⟨⟨a, rfl, ha⟩, ⟨b, rfl, hb⟩, ⟨c, rfl, hc⟩, ⟨z, rfl, hz⟩⟩ := ho
    have := b6 (by simp)
    have hu := ofI_lt 2 z
    simp only [immRange32] at hz
    have e : ((ofI 2 z : Nat) : Int) = z := by simp only [ofI]; omega
    simp only [encode32, Option.getD_some] at hw
    from_fields w word_fields hw b1 ha b2 hb hc (by omega)
    omega
  case Lr =>
    obtain ⟨⟨a, rfl, ha⟩, ⟨b, rfl, hb⟩, rfl, ⟨z, rfl, hz⟩⟩ := ho
    have := b6 (by simp)
    have hu := ofI_lt 2 z
    simp only [immRange32] at hz
    have e : ((ofI 2 z : Nat) : Int) = z := by simp only [ofI]; omega
    simp only [encode32, Option.getD_some] at hw
    from_fields w word_fields hw b1 ha b2 hb (by omega) (by omega)
    omega
  case SsAmo =>
    obtain ⟨⟨a, rfl, ha⟩, ⟨b, rfl, hb⟩, ⟨c, rfl, hc⟩, rfl⟩ := ho
    have := b6 (by simp)
    simp only [encode32, Option.getD_some] at hw
    from_fields w word_fields hw b1 ha b2 hb hc (by omega)
    omega
  case Fence =>
    obtain ⟨⟨a, rfl, ha⟩, ⟨b, rfl, hb⟩, rfl, ⟨z, rfl, hz⟩⟩ := ho
    have hu := ofI_lt 12 z
    simp only [immRange32] at hz
    have e : ((ofI 12 z : Nat) : Int) = z := by simp only [ofI]; omega
    simp only [encode32, Option.getD_some, wordI_eq] at hw
    from_fields w word_fields hw b1 ha b2 hb (by omega) (by omega)
    omega
  case Cbo =>
    obtain ⟨rfl, ⟨b, rfl, hb⟩, rfl, rfl⟩ := ho
    simp only [encode32, Option.getD_some, wordI_eq] at hw
    from_fields w word_fields hw b1 (by omega) b2 hb (by omega) (by omega)
    omega
  case CsrR =>
    obtain ⟨⟨a, rfl, ha⟩, ⟨b, rfl, hb⟩, ⟨c, rfl, hc⟩, rfl⟩ := ho
    simp only [encode32, Option.getD_some, wordI_eq] at hw
    from_fields w word_fields hw b1 ha b2 hb (by omega) (by omega)
    omega
  case CsrI =>
    obtain ⟨⟨a, rfl, ha⟩, rfl, ⟨c, rfl, hc⟩, ⟨z, rfl, hz⟩⟩ := ho
    have hu := ofI_lt 5 z
    simp only [immRange32] at hz
    have e : ((ofI 5 z : Nat) : Int) = z := by simp only [ofI]; omega
    simp only [encode32, Option.getD_some, wordI_eq] at hw
    from_fields w word_fields hw b1 ha b2 hu (by omega) (by omega)
    omega
  case SsPush =>
    obtain ⟨rfl, rfl, hc, rfl⟩ := ho
    have := b4 (by simp)
    rcases hc with rfl | rfl
    all_goals
      simp only [encode32, Option.getD_some] at hw
      from_fields w word_fields hw b1 (by omega) b2 (by omega) (by omega) this
      decide
  case SsPop =>
    obtain ⟨rfl, hc, rfl, rfl⟩ := ho
    rcases hc with rfl | rfl
    all_goals
      simp only [encode32, Option.getD_some, wordI_eq] at hw
      from_fields w word_fields hw b1 (by omega) b2 (by omega) (by omega) (by omega)
      exact ⟨by omega, by decide⟩
  case SsRd =>
    obtain ⟨⟨a, rfl, ha⟩, h0, rfl, rfl, rfl⟩ := ho
    simp only [ne_eq, Option.some.injEq] at h0
    simp only [encode32, Option.getD_some, wordI_eq] at hw
    from_fields w word_fields hw b1 ha b2 (by omega) (by omega) (by omega)
    omega
  case Cntr =>
    obtain ⟨⟨a, rfl, ha⟩, rfl, rfl, rfl⟩ := ho
    simp only [encode32, Option.getD_some, wordI_eq] at hw
    from_fields w word_fields hw b1 ha b2 (by omega) (by omega) (by omega)
    omega
  case Sys =>
    obtain ⟨rfl, rfl, rfl, rfl⟩ := ho
    simp only [encode32, wordI_eq] at hw
    from_fields w word_fields hw b1 (by omega) b2 (by omega) (by omega) (by omega)
    omega
  case SfVma =>
    obtain ⟨rfl, ⟨b, rfl, hb⟩, ⟨c, rfl, hc⟩, rfl⟩ := ho
    have := b4 (by simp)
    simp only [encode32, Option.getD_some] at hw
    from_fields w word_fields hw b1 (by omega) b2 hb hc this

/-- Reading the fields of a word with the fixed bits of the row and assembling them gives the word
back; shadow-stack swaps do not report their aq and rl bits. -/
theorem encode32_fields (isa : Isa) (w : Nat) (hw : w < 2 ^ 32) (op : OpcodeKind) (r : Row)
    (hr : row32 op = some r) (hf : fixed32 isa w r) (hs : r.fmt = .SsAmo → fld w 26 25 = 0) :
    encode32 r ((rd32 w r.fmt).getD 0) ((rs132 w r.fmt).getD 0) ((rs232 w r.fmt).getD 0)
      ((imm32 isa w r.fmt).getD 0) = w := by
  obtain ⟨b1, b2, b3, b4, b5, b6⟩ := row_bounds op r hr
  clear hr
  obtain ⟨d1, d2, d3, d4, d5, d6, d7, d8, d9, d10, d11, d12, d13⟩ := fld_derived w
  obtain ⟨c1, c2, c3, c4, c5, c6⟩ := bounds6 w
  refine Eq.trans ?_ (word_of_fields w hw).symm
  obtain ⟨f, major, f3, code⟩ := r
  simp only at b1 b2 b3 b4 b5 b6 hf hs ⊢
  have cong : ∀ {m rd a b c d m' rd' a' b' c' d' : Nat}, m = m' → rd = rd' → a = a' → b = b' →
      c = c' → d = d' → word m rd a b c d = word m' rd' a' b' c' d' := by
    intros; subst_vars; rfl
  cases f
  case I =>
    have e := ofI_sext 12 (fld w 31 20) (fld_lt w 31 20)
    simp only [fixed32] at hf
    simp only [rd32, rs132, rs232, imm32, immI, Option.getD_some, encode32, e, wordI_eq]
    apply cong <;> omega
  case S =>
    have e := ofI_sext 12 (fld w 31 25 * 2 ^ 5 + fld w 11 7) (by omega)
    simp only [fixed32] at hf
    simp only [rd32, rs132, rs232, imm32, immS, Option.getD_some, encode32, e]
    apply cong <;> first | omega | (rw [fld]; omega)
  case B =>
    have e := ofI_sext 13 (fld w 31 31 * 2 ^ 12 + fld w 7 7 * 2 ^ 11 + fld w 30 25 * 2 ^ 5
      + fld w 11 8 * 2) (by omega)
    simp only [fixed32] at hf
    simp only [rd32, rs132, rs232, imm32, immB, Option.getD_some, encode32, e]
    obtain ⟨g1, g2, g3, g4⟩ := fieldsB (u := fld w 31 31 * 2 ^ 12 + fld w 7 7 * 2 ^ 11
      + fld w 30 25 * 2 ^ 5 + fld w 11 8 * 2) rfl (fld_lt _ _ _) (fld_lt _ _ _) (fld_lt _ _ _)
      (fld_lt _ _ _)
    rw [g1, g2, g3, g4]
    apply cong <;> omega
  case U =>
    have e := ofI_nat 20 (fld w 31 12) (fld_lt w 31 12)
    simp only [fixed32] at hf
    simp only [rd32, rs132, rs232, imm32, immU, Option.getD_some, encode32, e, wordU_eq]
    apply cong <;> omega
  case J =>
    have e := ofI_sext 21 (fld w 31 31 * 2 ^ 20 + fld w 19 12 * 2 ^ 12 + fld w 20 20 * 2 ^ 11
      + fld w 30 21 * 2) (by omega)
    simp only [fixed32] at hf
    simp -implicitDefEqProofs only [rd32, rs132, rs232, imm32, immJ, Option.getD_some, encode32, e]
    obtain ⟨g1, g2, g3, g4⟩ := fieldsJ (u := fld w 31 31 * 2 ^ 20 + fld w 19 12 * 2 ^ 12
      + fld w 20 20 * 2 ^ 11 + fld w 30 21 * 2) rfl (fld_lt _ _ _) (fld_lt _ _ _) (fld_lt _ _ _)
      (fld_lt _ _ _)
    rw [g1, g2, g3, g4, wordJ_eq _ _ _ _ _ _ (fld_lt _ _ _) (fld_lt _ _ _)]
    have q1 := fld_lt w 31 31
    apply cong <;> omega
  case ShX =>
    obtain ⟨h7, he⟩ := b5 rfl
    cases isa
    · have e := ofI_nat 6 (fld w 24 20) (by omega)
      simp only [fixed32] at hf
      simp only [rd32, rs132, rs232, imm32, Option.getD_some, encode32, wordI_eq, e]
      apply cong <;> omega
    · have e := ofI_nat 6 (fld w 25 20) (by omega)
      simp only [fixed32] at hf
      simp only [rd32, rs132, rs232, imm32, Option.getD_some, encode32, wordI_eq, e]
      apply cong <;> omega
  case ShW =>
    have e := ofI_nat 6 (fld w 24 20) (by omega)
    simp only [fixed32] at hf
    simp only [rd32, rs132, rs232, imm32, Option.getD_some, encode32, wordI_eq, e]
    apply cong <;> omega
  case Amo | Lr =>
    have e := ofI_nat 2 (fld w 26 25) (by omega)
    simp only [fixed32] at hf
    simp only [rd32, rs132, rs232, imm32, Option.getD_some, encode32, e]
    apply cong <;> omega
  case Fence =>
    have e := ofI_nat 12 (fld w 31 20) (by omega)
    simp only [fixed32] at hf
    simp only [rd32, rs132, rs232, imm32, Option.getD_some, encode32, wordI_eq, e]
    apply cong <;> omega
  case CsrI =>
    have e := ofI_nat 5 (fld w 19 15) (by omega)
    simp only [fixed32] at hf
    simp only [rd32, rs132, rs232, imm32, Option.getD_some, encode32, wordI_eq, e]
    apply cong <;> omega
  case SsAmo =>
    have hs := hs rfl
    simp only [fixed32] at hf
    simp only [rd32, rs132, rs232, imm32, Option.getD_some, encode32]
    apply cong <;> omega
  all_goals
    simp only [fixed32] at hf
    simp only [rd32, rs132, rs232, imm32, Option.getD_some, Option.getD_none, encode32, wordI_eq]
    apply cong <;> omega

end Raki
