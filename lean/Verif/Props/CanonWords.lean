import Verif.Props.CountErrors
/-!
# One word for each instruction

Words that differ only in bits that the decoder ignores are decoded as the same instruction.  One word of each such
class is chosen.
-/

namespace Raki

open Spec

/-- The words chosen for an opcode: the bits that are ignored are zero. -/
def canon32 (isa : Isa) (op : OpcodeKind) : Region :=
  let reg (m f : Nat) (top : Cube) : Region := [cube32 (.isIn [m]) .any (.isIn [f]) .any top]
  match gated64 op, isa with
  | true, .Rv32 => []
  | _, _ => match op with
    | .BaseI .JALR => reg 0x67 0 (top12 .any)
    | .BaseI .SLL => reg 0x33 1 (top7 .any (.isIn [0]))
    | .BaseI .SLT => reg 0x33 2 (top7 .any (.isIn [0]))
    | .BaseI .SLTU => reg 0x33 3 (top7 .any (.isIn [0]))
    | .BaseI .XOR => reg 0x33 4 (top7 .any (.isIn [0]))
    | .BaseI .OR => reg 0x33 6 (top7 .any (.isIn [0]))
    | .BaseI .AND => reg 0x33 7 (top7 .any (.isIn [0]))
    | .BaseI .SLLIW => reg 0x1b 1 (top7 .any (.isIn [0]))
    | .BaseI .SLLW => reg 0x3b 1 (top7 .any (.isIn [0]))
    | .BaseI .ECALL => [cube32 (.isIn [0x73]) (.isIn [0]) (.isIn [0]) (.isIn [0]) (top12 (.isIn [0]))]
    | .BaseI .EBREAK => [cube32 (.isIn [0x73]) (.isIn [0]) (.isIn [0]) (.isIn [0]) (top12 (.isIn [1]))]
    | .A .LR_W => reg 0x2f 2 (top5 (.isIn [0]) (.isIn [2]))
    | .A .LR_D => reg 0x2f 3 (top5 (.isIn [0]) (.isIn [2]))
    | .Zicfiss .SSPUSH => [cube32 (.isIn [0x73]) (.isIn [0]) (.isIn [4]) (.isIn [0]) (top12 (.isIn [0xce1, 0xce5]))]
    | .Zicfiss .SSPOPCHK => [cube32 (.isIn [0x73]) (.isIn [0]) (.isIn [4]) (.notIn [0]) (top12 (.isIn [0xcdc]))]
    | .Zicfiss .SSAMOSWAP_W => reg 0x2f 2 (top7 .any (.isIn [0x24]))
    | .Zicfiss .SSAMOSWAP_D => reg 0x2f 3 (top7 .any (.isIn [0x24]))
    | .Zicntr .RDCYCLE => [cube32 (.isIn [0x73]) .any (.isIn [2]) (.isIn [0]) (top12 (.isIn [0xc00]))]
    | .Zicntr .RDTIME => [cube32 (.isIn [0x73]) .any (.isIn [2]) (.isIn [0]) (top12 (.isIn [0xc01]))]
    | .Zicntr .RDINSTRET => [cube32 (.isIn [0x73]) .any (.isIn [2]) (.isIn [0]) (top12 (.isIn [0xc02]))]
    | .Zicntr .RDCYCLE_H => [cube32 (.isIn [0x73]) .any (.isIn [2]) (.isIn [0]) (top12 (.isIn [0xc80]))]
    | .Zicntr .RDTIME_H => [cube32 (.isIn [0x73]) .any (.isIn [2]) (.isIn [0]) (top12 (.isIn [0xc81]))]
    | .Zicntr .RDINSTRET_H => [cube32 (.isIn [0x73]) .any (.isIn [2]) (.isIn [0]) (top12 (.isIn [0xc82]))]
    | .Priv .SFENCE_VMA => [cube32 (.isIn [0x73]) (.isIn [0]) (.isIn [0]) .any (top7 .any (.isIn [9]))]
    | op => region32 isa op

/-- A word by its fields. -/
def mk6 (a b c d e g : Nat) : Nat := a + 2 ^ 7 * (b + 2 ^ 5 * (c + 2 ^ 3 * (d + 2 ^ 5 * (e + 2 ^ 5 * g))))

theorem mk6_fields {a b c d e g : Nat} (ha : a < 128) (hb : b < 32) (hc : c < 8) (hd : d < 32) (he : e < 32)
    (hg : g < 128) : mk6 a b c d e g < 2 ^ 32 ∧ fld (mk6 a b c d e g) 6 0 = a ∧ fld (mk6 a b c d e g) 11 7 = b ∧
      fld (mk6 a b c d e g) 14 12 = c ∧ fld (mk6 a b c d e g) 19 15 = d ∧ fld (mk6 a b c d e g) 24 20 = e ∧
      fld (mk6 a b c d e g) 31 25 = g := by
  simp only [mk6, fld]
  omega

theorem fields_top (n : Nat) : fld n 31 20 = fld n 24 20 + 2 ^ 5 * fld n 31 25 ∧ fld n 31 27 = fld n 31 25 / 4 ∧
    fld n 26 25 = fld n 31 25 % 4 ∧ fld n 31 26 = fld n 31 25 / 2 ∧
    fld n 25 20 = fld n 24 20 + 2 ^ 5 * (fld n 31 25 % 2) ∧
    fld n 31 12 = fld n 14 12 + 2 ^ 3 * (fld n 19 15 + 2 ^ 5 * (fld n 24 20 + 2 ^ 5 * fld n 31 25)) := by
  simp only [fld]
  omega

theorem fields_lt (n : Nat) : fld n 6 0 < 128 ∧ fld n 11 7 < 32 ∧ fld n 14 12 < 8 ∧ fld n 19 15 < 32 ∧
    fld n 24 20 < 32 ∧ fld n 31 25 < 128 := by
  simp only [fld]
  omega

theorem eq_mk6 {n : Nat} (hn : n < 2 ^ 32) :
    n = mk6 (fld n 6 0) (fld n 11 7) (fld n 14 12) (fld n 19 15) (fld n 24 20) (fld n 31 25) := by
  simp only [mk6, fld]
  omega

/-- Some bits of the words accepted as the opcode are ignored. -/
def ambiguous32 : OpcodeKind → Bool
  | .BaseI .JALR | .BaseI .SLL | .BaseI .SLT | .BaseI .SLTU | .BaseI .XOR | .BaseI .OR | .BaseI .AND
  | .BaseI .SLLIW | .BaseI .SLLW | .BaseI .ECALL | .BaseI .EBREAK | .A .LR_W | .A .LR_D | .Zicfiss .SSPUSH
  | .Zicfiss .SSPOPCHK | .Zicfiss .SSAMOSWAP_W | .Zicfiss .SSAMOSWAP_D | .Zicntr _ | .Priv .SFENCE_VMA => true
  | _ => false

/-- The opcode's row is all that the decoder looks at. -/
def regular32 (op : OpcodeKind) : Bool :=
  match ambiguous32 op, op with
  | true, _ | _, .Zicsr .CSRRS | _, .Zicfiss .SSRDP => false
  | _, _ => true

theorem fields_eq {n m : Nat} (hn : n < 2 ^ 32) (hm : m < 2 ^ 32) (e : fld n 6 0 = fld m 6 0 ∧ fld n 11 7 = fld m 11 7 ∧
    fld n 14 12 = fld m 14 12 ∧ fld n 19 15 = fld m 19 15 ∧ fld n 24 20 = fld m 24 20 ∧
    fld n 31 25 = fld m 31 25) : n = m := by
  rw [eq_mk6 hn, eq_mk6 hm, e.1, e.2.1, e.2.2.1, e.2.2.2.1, e.2.2.2.2.1, e.2.2.2.2.2]

theorem cubeOf_inj (isa : Isa) (r : Row) (hf : r.fmt ≠ .SsAmo) (n m : Nat) (hn : n < 2 ^ 32)
    (hm : m < 2 ^ 32) (h1 : Cube.has (cubeOf isa r) n = true) (h2 : Cube.has (cubeOf isa r) m = true)
    (h : ∀ p ∈ operandFields32 isa r.fmt, fld n p.1 p.2 = fld m p.1 p.2) : n = m := by
  obtain ⟨a1, a2, a3, a4, a5, a6⟩ := fields_top n
  obtain ⟨b1, b2, b3, b4, b5, b6⟩ := fields_top m
  have ln := fields_lt n
  have lm := fields_lt m
  refine fields_eq hn hm ?_
  obtain ⟨g, ma, f3, c⟩ := r
  cases g <;> first | exact absurd rfl hf | skip
  all_goals
    cases isa <;>
    (simp only [cubeOf, has_top12, has_top7, has_top6, has_top5, isIn_has, notIn_has, any_has, List.mem_cons,
      List.not_mem_nil, or_false, true_and, and_true] at h1 h2
     try simp only [operandFields32, List.mem_cons, List.not_mem_nil, or_false, forall_eq_or_imp, forall_eq,
      false_imp_iff, implies_true] at h
     refine ⟨?_, ?_, ?_, ?_, ?_, ?_⟩ <;> omega)

theorem canon32_regular {isa : Isa} {op : OpcodeKind} {r : Row} (hr : row32 op = some r) (h : regular32 op = true)
    {n : Nat} (hc : Region.has (canon32 isa op) n = true) : Cube.has (cubeOf isa r) n = true ∧ r.fmt ≠ .SsAmo := by
  cases isa <;> (rcases op with o | o | o | o | o | o | o | o | o | o) <;> cases o <;>
    first
    | (cases h; done)
    | (cases hr <;>
       first
       | exact ⟨region_one _ _ ▸ hc, Fmt32.noConfusion⟩
       | cases hc)

/-- Two chosen words with the same operands are the same word. -/
theorem canon32_inj (isa : Isa) (op : OpcodeKind) (r : Row) (hr : row32 op = some r) (n m : Nat) (hn : n < 2 ^ 32)
    (hm : m < 2 ^ 32) (h1 : Region.has (canon32 isa op) n = true) (h2 : Region.has (canon32 isa op) m = true)
    (h : ∀ p ∈ operandFields32 isa r.fmt, fld n p.1 p.2 = fld m p.1 p.2) : n = m := by
  by_cases hs : regular32 op = true
  · exact cubeOf_inj isa r (canon32_regular hr hs h1).2 n m hn hm (canon32_regular hr hs h1).1
      (canon32_regular hr hs h2).1 h
  obtain ⟨a1, a2, a3, a4, a5, a6⟩ := fields_top n
  obtain ⟨b1, b2, b3, b4, b5, b6⟩ := fields_top m
  have ln := fields_lt n
  have lm := fields_lt m
  refine fields_eq hn hm ?_
  rcases op with o | o | o | o | o | o | o | o | o | o
  all_goals
    cases o <;> first | exact absurd rfl hs | skip
  all_goals
    cases isa <;>
    (cases hr
     simp only [canon32, region32, gated64, region_cons, region_nil, has_top12, has_top7, has_top5, isIn_has, notIn_has,
      any_has, List.mem_cons, List.not_mem_nil, or_false, true_and, and_true] at h1 h2
     try simp only [operandFields32, List.mem_cons, List.not_mem_nil, or_false, forall_eq_or_imp, forall_eq,
      false_imp_iff, implies_true] at h
     try (refine ⟨?_, ?_, ?_, ?_, ?_, ?_⟩ <;> omega))

/-- The fields 11..7, 14..12, 19..15, 24..20 and 31..25 of the chosen word. -/
def chosenFields (n : Nat) : OpcodeKind → Nat × Nat × Nat × Nat × Nat
  | .BaseI .JALR => (fld n 11 7, 0, fld n 19 15, fld n 24 20, fld n 31 25)
  | .BaseI .SLL | .BaseI .SLT | .BaseI .SLTU | .BaseI .XOR | .BaseI .OR | .BaseI .AND | .BaseI .SLLIW | .BaseI .SLLW =>
    (fld n 11 7, fld n 14 12, fld n 19 15, fld n 24 20, 0)
  | .BaseI .ECALL | .BaseI .EBREAK | .Zicfiss .SSPUSH => (0, fld n 14 12, 0, fld n 24 20, fld n 31 25)
  | .A .LR_W | .A .LR_D => (fld n 11 7, fld n 14 12, fld n 19 15, 0, fld n 31 25)
  | .Zicfiss .SSPOPCHK | .Priv .SFENCE_VMA => (0, fld n 14 12, fld n 19 15, fld n 24 20, fld n 31 25)
  | .Zicfiss .SSAMOSWAP_W | .Zicfiss .SSAMOSWAP_D => (fld n 11 7, fld n 14 12, fld n 19 15, fld n 24 20, 0x24)
  | .Zicntr _ => (fld n 11 7, fld n 14 12, 0, fld n 24 20, fld n 31 25)
  | _ => (fld n 11 7, fld n 14 12, fld n 19 15, fld n 24 20, fld n 31 25)

theorem chosen_word (n : Nat) (op : OpcodeKind) : ∃ m, m < 2 ^ 32 ∧ fld m 6 0 = fld n 6 0 ∧
    chosenFields n op = (fld m 11 7, fld m 14 12, fld m 19 15, fld m 24 20, fld m 31 25) := by
  have l := fields_lt n
  have b : (chosenFields n op).1 < 32 ∧ (chosenFields n op).2.1 < 8 ∧ (chosenFields n op).2.2.1 < 32 ∧
      (chosenFields n op).2.2.2.1 < 32 ∧ (chosenFields n op).2.2.2.2 < 128 := by
    unfold chosenFields
    split <;> refine ⟨?_, ?_, ?_, ?_, ?_⟩ <;> dsimp only <;> omega
  have h := mk6_fields l.1 b.1 b.2.1 b.2.2.1 b.2.2.2.1 b.2.2.2.2
  exact ⟨_, h.1, h.2.1, by rw [h.2.2.1, h.2.2.2.1, h.2.2.2.2.1, h.2.2.2.2.2.1, h.2.2.2.2.2.2]⟩

theorem canon32_same {isa : Isa} {op : OpcodeKind} (hg : ¬ (gated64 op = true ∧ isa = .Rv32))
    (ha : ambiguous32 op = false) : canon32 isa op = region32 isa op := by
  cases isa <;> (rcases op with o | o | o | o | o | o | o | o | o | o) <;> cases o <;>
    first | rfl | exact absurd ⟨rfl, rfl⟩ hg | cases ha

/-- Every accepted word has the operands of a chosen word. -/
theorem canon32_exists (isa : Isa) (op : OpcodeKind) (r : Row) (hr : row32 op = some r) (n : Nat) (hn : n < 2 ^ 32)
    (h : Region.has (region32 isa op) n = true) : ∃ m, m < 2 ^ 32 ∧ Region.has (canon32 isa op) m = true ∧
      ∀ p ∈ operandFields32 isa r.fmt, fld m p.1 p.2 = fld n p.1 p.2 := by
  by_cases hg : gated64 op = true ∧ isa = .Rv32
  · obtain ⟨hg, rfl⟩ := hg
    simp only [region32, hg, region_nil] at h
  by_cases ha : ambiguous32 op = false
  · exact ⟨n, hn, canon32_same hg ha ▸ h, fun _ _ => rfl⟩
  obtain ⟨t1, t2, t3, t4, t5, t6⟩ := fields_top n
  obtain ⟨m, hm, m1, m2⟩ := chosen_word n op
  obtain ⟨u1, u2, u3, u4, u5, u6⟩ := fields_top m
  have l := fields_lt n
  revert hr h hg m2
  unfold ambiguous32 at ha
  split at ha
  case h_20 => exact absurd rfl ha
  case' h_18 o => cases o
  all_goals
    clear ha
    intro hr h hg m2
    simp only [chosenFields, Prod.mk.injEq] at m2
    simp only [row32, Option.some.injEq] at hr
    subst hr
    refine ⟨m, hm, ?_, ?_⟩
    · cases isa <;> (first | exact absurd ⟨rfl, rfl⟩ hg | skip) <;>
        simp only [canon32, region32, gated64, row32, cubeOf, region_cons, region_nil, has_top12, has_top7, has_top5,
          isIn_has, notIn_has, any_has, List.mem_cons, List.not_mem_nil, or_false, true_and, and_true] at h ⊢ <;> omega
    · simp only [operandFields32, List.mem_cons, List.not_mem_nil, or_false, forall_eq_or_imp, forall_eq,
        false_imp_iff, implies_true]
      try omega

theorem canon32_region (isa : Isa) (op : OpcodeKind) (n : Nat) (h : Region.has (canon32 isa op) n = true) :
    Region.has (region32 isa op) n = true := by
  by_cases hg : gated64 op = true ∧ isa = .Rv32
  · obtain ⟨hg, rfl⟩ := hg
    simp only [canon32, hg, region_nil] at h
  by_cases ha : ambiguous32 op = false
  · rwa [canon32_same hg ha] at h
  obtain ⟨t1, t2, t3, t4, t5, t6⟩ := fields_top n
  have l := fields_lt n
  revert h hg
  unfold ambiguous32 at ha
  split at ha
  case h_20 => exact absurd rfl ha
  case' h_18 o => cases o
  all_goals
    clear ha
    intro h hg
    cases isa <;> (first | exact absurd ⟨rfl, rfl⟩ hg | skip) <;>
      simp only [canon32, region32, gated64, row32, cubeOf, region_cons, region_nil, has_top12, has_top7, has_top5,
        isIn_has, notIn_has, any_has, List.mem_cons, List.not_mem_nil, or_false, true_and, and_true] at h ⊢ <;> omega

end Raki
