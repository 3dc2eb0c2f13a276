import Verif.Lemmas.Count
import Verif.Lemmas.CountIsa
import Verif.Lemmas.Official
import Verif.Lemmas.Decode32
import Verif.Lemmas.Decode16
import Verif.Source.Codes
import Verif.Props.Derive
/-!
# How many words are accepted

`countBelow n p` is the number of `x < n` with `p x`.
-/

namespace Raki

open Spec

/-- The opcode that a 32-bit word is decoded as. -/
def opcodeOf32 (isa : Isa) (n : Nat) : Option OpcodeKind :=
  match U32.decode (BitVec.ofNat 32 n) isa with
  | .ok i => some i.opc
  | _ => none

/-- The opcode that a halfword is decoded as. -/
def opcodeOf16 (isa : Isa) (n : Nat) : Option OpcodeKind :=
  match U16.decode (BitVec.ofNat 16 n) isa with
  | .ok i => some i.opc
  | _ => none

theorem opcodeOf32_iff {isa : Isa} {n : Nat} (hn : n < 2 ^ 32) {op : OpcodeKind} :
    opcodeOf32 isa n = some op ↔ accepts32 isa n op := by
  have h := decode32_accepts (BitVec.ofNat 32 n) isa op
  rw [BitVec.toNat_ofNat, Nat.mod_eq_of_lt hn] at h
  rw [← h, opcodeOf32]
  cases U32.decode (BitVec.ofNat 32 n) isa <;> simp

theorem opcodeOf16_iff {isa : Isa} {n : Nat} (hn : n < 2 ^ 16) {op : OpcodeKind} :
    opcodeOf16 isa n = some op ↔ accepts16 isa n op := by
  have h := decode16_accepts (BitVec.ofNat 16 n) isa op
  rw [BitVec.toNat_ofNat, Nat.mod_eq_of_lt hn] at h
  rw [← h, opcodeOf16]
  cases U16.decode (BitVec.ofNat 16 n) isa <;> simp

theorem allOpcodes_mem (op : OpcodeKind) : op ∈ allOpcodes := by
  rcases op with o | o | o | o | o | o | o | o | o | o
  all_goals cases o
  all_goals decide +kernel

set_option maxRecDepth 10000 in
theorem allOpcodes_nodup : allOpcodes.Nodup := by decide +kernel

/-- The sets of encodings are well formed. -/
theorem regions_ok (isa : Isa) (op : OpcodeKind) : (region32 isa op).ok 32 = true ∧
    (officialRegion32 isa op).ok 32 = true ∧ (region16 isa op).ok 16 = true ∧
    (officialRegion16 isa op).ok 16 = true := by
  have h : (allOpcodes.all fun op => [Isa.Rv32, .Rv64].all fun isa => (region32 isa op).ok 32 &&
      (officialRegion32 isa op).ok 32 && (region16 isa op).ok 16 && (officialRegion16 isa op).ok 16) = true := by
    decide +kernel
  have h := List.all_eq_true.1 (List.all_eq_true.1 h op (allOpcodes_mem op)) isa (by cases isa <;> simp)
  simpa only [Bool.and_eq_true, and_assoc] using h

theorem countBelow_le {n : Nat} {p q : Nat → Bool} (h : ∀ x, x < n → p x = true → q x = true) :
    countBelow n p ≤ countBelow n q := by
  induction n with
  | zero => exact Nat.le_refl _
  | succ n ih =>
    rw [countBelow_succ, countBelow_succ]
    have := ih fun x hx => h x (by omega)
    have := h n (by omega)
    cases hp : p n <;> cases hq : q n <;> simp_all <;> omega

theorem countBelow_diff {n : Nat} {p q : Nat → Bool} (h : (∀ x, x < n → p x = true → q x = true) ∨
    ∀ x, x < n → q x = true → p x = true) :
    countBelow n (fun x => p x && !q x) = countBelow n p - countBelow n q := by
  rcases h with h | h
  · rw [countBelow_zero, Nat.sub_eq_zero_of_le (countBelow_le h)]
    intro x hx
    have := h x hx
    cases hp : p x <;> cases hq : q x <;> simp_all
  · have e : countBelow n p = countBelow n (fun x => (p x && !q x) || q x) := by
      refine countBelow_congr fun x hx => ?_
      have := h x hx
      cases hp : p x <;> cases hq : q x <;> simp_all
    rw [e, countBelow_or, Nat.add_sub_cancel]
    intro x h1 h2
    rw [h2] at h1
    simp at h1

theorem count32 (isa : Isa) (op : OpcodeKind) :
    countBelow (2 ^ 32) (fun n => decide (opcodeOf32 isa n = some op)) = (region32 isa op).size := by
  rw [← region_count _ (regions_ok isa op).1]
  refine countBelow_congr fun n hn => ?_
  rw [Bool.eq_iff_iff, decide_eq_true_iff, opcodeOf32_iff hn, region32_has]

theorem count16 (isa : Isa) (op : OpcodeKind) :
    countBelow (2 ^ 16) (fun n => decide (opcodeOf16 isa n = some op)) = (region16 isa op).size := by
  rw [← region_count _ (regions_ok isa op).2.2.1]
  refine countBelow_congr fun n hn => ?_
  rw [Bool.eq_iff_iff, decide_eq_true_iff, opcodeOf16_iff hn, region16_has _ _ hn]

/-- The words accepted as `op` that the manuals do not assign to it. -/
theorem mistaken32_count (isa : Isa) (op : OpcodeKind) [DecidablePred fun n => official32 isa n op] :
    countBelow (2 ^ 32) (fun n => decide (opcodeOf32 isa n = some op ∧ ¬ official32 isa n op)) =
      (region32 isa op).size - (officialRegion32 isa op).size := by
  rw [← region_count _ (regions_ok isa op).1, ← region_count _ (regions_ok isa op).2.1, ← countBelow_diff]
  · refine countBelow_congr fun n hn => ?_
    rw [Bool.eq_iff_iff, decide_eq_true_iff, opcodeOf32_iff hn, ← region32_has, ← officialRegion32_has]
    simp
  · exact .inr fun n _ h => (region32_has ..).2 (official_accepts32 _ _ _ ((officialRegion32_has ..).1 h))

/-- The halfwords, likewise. -/
theorem mistaken16_count (isa : Isa) (op : OpcodeKind) [DecidablePred fun n => official16 isa n op] :
    countBelow (2 ^ 16) (fun n => decide (opcodeOf16 isa n = some op ∧ ¬ official16 isa n op)) =
      (region16 isa op).size - (officialRegion16 isa op).size := by
  rw [← region_count _ (regions_ok isa op).2.2.1, ← region_count _ (regions_ok isa op).2.2.2, ← countBelow_diff]
  · refine countBelow_congr fun n hn => ?_
    rw [Bool.eq_iff_iff, decide_eq_true_iff, opcodeOf16_iff hn, ← region16_has _ _ hn,
      ← officialRegion16_has _ _ hn]
    simp
  · by_cases hc : op = .C .ADD
    · refine .inl fun n hn h => (officialRegion16_has _ _ hn _).2 ?_
      have h := (region16_has _ _ hn _).1 h
      subst hc
      exact ⟨h.1, h.2.1, h.2.2.2⟩
    · exact .inr fun n hn h => (region16_has _ _ hn _).2 (official16_accepts16 _ _ _
        ((officialRegion16_has _ _ hn _).1 h) fun h => hc h.1)

theorem countBelow_some {n : Nat} {f : Nat → Option OpcodeKind} {q : Nat → OpcodeKind → Prop}
    [∀ x a, Decidable (q x a)] [∀ x, Decidable (∃ a, f x = some a ∧ q x a)] :
    countBelow n (fun x => decide (∃ a, f x = some a ∧ q x a)) =
      (allOpcodes.map fun a => countBelow n fun x => decide (f x = some a ∧ q x a)).sum := by
  have key := countBelow_sum n (fun x => (f x).filter fun a => decide (q x a)) allOpcodes allOpcodes_nodup
    fun _ a _ => allOpcodes_mem a
  rw [countBelow_congr (q := fun x => ((f x).filter fun a => decide (q x a)).isSome), key]
  · simp only [Option.filter_eq_some_iff, decide_eq_true_eq]
  · intro x _
    rw [Bool.eq_iff_iff, decide_eq_true_iff]
    cases e : f x with
    | none => simp
    | some a => by_cases h : q x a <;> simp [Option.filter, h]

/-- How many 32-bit words are decoded as an opcode: as many as its format leaves free, apart from the opcodes for which
the decoder does not look at all the fixed bits. -/
def words32 (isa : Isa) (op : OpcodeKind) : Nat :=
  match gated64 op, isa, op with
  | true, .Rv32, _ => 0
  | _, _, .BaseI .JALR => 2 ^ 25
  | _, _, .BaseI .SLL | _, _, .BaseI .SLT | _, _, .BaseI .SLTU | _, _, .BaseI .XOR | _, _, .BaseI .OR
  | _, _, .BaseI .AND => (2 ^ 7 - 1) * 2 ^ 15
  | _, _, .BaseI .SLLIW => 2 ^ 22
  | _, _, .BaseI .SLLW => 2 * 2 ^ 15
  | _, _, .BaseI .ECALL | _, _, .BaseI .EBREAK => 2 ^ 10
  | _, _, .A .LR_W | _, _, .A .LR_D => 2 ^ 17
  | _, _, .Zicsr .CSRRS => (2 ^ 12 - 6) * 2 ^ 10
  | _, _, .Zicfiss .SSPUSH => 2 * 2 ^ 10
  | _, _, .Zicfiss .SSPOPCHK => (2 ^ 5 - 1) * 2 ^ 5
  | _, _, .Zicfiss .SSRDP => 2 ^ 5
  | _, _, .Zicntr _ => 2 ^ 10
  | _, _, .Priv .SFENCE_VMA => 2 ^ 15
  | _, _, _ => match (row32 op).map Row.fmt with
    | some .U | some .J => 2 ^ 25
    | some .I | some .S | some .B | some .CsrR | some .CsrI | some .Fence => 2 ^ 22
    | some .R | some .ShW => 2 ^ 15
    | some .ShX => (match isa with
      | .Rv32 => 2 ^ 15
      | .Rv64 => 2 ^ 16)
    | some .Amo | some .SsAmo => 2 ^ 17
    | some .Cbo => 2 ^ 5
    | some .Sys => 1
    | _ => 0

/-- How many of them the manuals do not assign to the opcode. -/
def mistaken32 : Isa → OpcodeKind → Nat
  | _, .BaseI .JALR => 7 * 2 ^ 22
  | _, .BaseI .SLL | _, .BaseI .SLT | _, .BaseI .SLTU | _, .BaseI .XOR | _, .BaseI .OR | _, .BaseI .AND => 126 * 2 ^ 15
  | .Rv64, .BaseI .SLLIW => 127 * 2 ^ 15
  | .Rv64, .BaseI .SLLW => 2 ^ 15
  | _, .BaseI .ECALL | _, .BaseI .EBREAK => 2 ^ 10 - 1
  | _, .A .LR_W | .Rv64, .A .LR_D => 31 * 2 ^ 12
  | _, .Zicfiss .SSPUSH => 2 * (2 ^ 10 - 1)
  | _, .Zicfiss .SSPOPCHK => 31 * 2 ^ 5 - 2
  | _, .Zicfiss .SSRDP => 1
  | .Rv32, .Zicfiss .SSAMOSWAP_D => 2 ^ 17
  | .Rv64, .Zicntr .RDCYCLE_H | .Rv64, .Zicntr .RDTIME_H | .Rv64, .Zicntr .RDINSTRET_H => 2 ^ 10
  | _, .Zicntr _ => 31 * 2 ^ 5
  | _, .Priv .SFENCE_VMA => 31 * 2 ^ 10
  | _, _ => 0

/-- How many halfwords are decoded as an opcode. -/
def words16 : Isa → OpcodeKind → Nat
  | _, .C .ADDI4SPN => 2 ^ 11 - 1
  | _, .C .LW | _, .C .SW | _, .C .LI | _, .C .J | _, .C .BEQZ | _, .C .BNEZ | _, .C .SLLI | _, .C .LWSP
  | _, .C .SWSP | .Rv32, .C .JAL | .Rv64, .C .ADDIW | .Rv64, .C .LD | .Rv64, .C .SD | .Rv64, .C .LDSP
  | .Rv64, .C .SDSP => 2 ^ 11
  | _, .C .NOP | _, .C .ADDI16SP => 2 ^ 6
  | _, .C .ADDI => 31 * 2 ^ 6
  | _, .C .LUI => 31 * 2 ^ 6 - 2
  | _, .C .SRLI | _, .C .SRAI | _, .C .ANDI => 2 ^ 9
  | _, .C .SUB | _, .C .XOR | _, .C .OR | _, .C .AND | .Rv64, .C .SUBW | .Rv64, .C .ADDW => 2 ^ 6
  | _, .C .JR | _, .C .EBREAK => 2 ^ 5
  | _, .C .JALR => 31
  | _, .C .MV => 2 ^ 5 * 31
  | _, .C .ADD => 31 * 31
  | _, .Zicfiss .C_SSPUSH | _, .Zicfiss .C_SSPOPCHK => 1
  | _, _ => 0

/-- How many of them the manual does not assign to the opcode. -/
def mistaken16 : Isa → OpcodeKind → Nat
  | _, .C .ADDI4SPN => 7
  | _, .C .ADDI16SP => 1
  | _, .C .LUI => 31 - 2
  | .Rv32, .C .SRLI | .Rv32, .C .SRAI => 2 ^ 8
  | .Rv32, .C .SLLI => 2 ^ 10
  | _, .C .LWSP | .Rv64, .C .LDSP | .Rv64, .C .ADDIW => 2 ^ 6
  | _, .C .JR => 1
  | _, .C .EBREAK => 31
  | _, _ => 0

theorem words_sizes (isa : Isa) (op : OpcodeKind) : (region32 isa op).size = words32 isa op ∧
    (region32 isa op).size - (officialRegion32 isa op).size = mistaken32 isa op ∧
    (region16 isa op).size = words16 isa op ∧
    (region16 isa op).size - (officialRegion16 isa op).size = mistaken16 isa op := by
  have h : (allOpcodes.all fun op => [Isa.Rv32, .Rv64].all fun isa => decide <|
      (region32 isa op).size = words32 isa op ∧
      (region32 isa op).size - (officialRegion32 isa op).size = mistaken32 isa op ∧
      (region16 isa op).size = words16 isa op ∧
      (region16 isa op).size - (officialRegion16 isa op).size = mistaken16 isa op) = true := by
    decide +kernel
  exact of_decide_eq_true
    (List.all_eq_true.1 (List.all_eq_true.1 h op (allOpcodes_mem op)) isa (by cases isa <;> simp))

/-- For every opcode, how many of the 2^32 words and of the 2^16 halfwords are decoded as it. -/
theorem C86_opcodes (isa : Isa) (op : OpcodeKind) :
    countBelow (2 ^ 32) (fun n => decide (opcodeOf32 isa n = some op)) = words32 isa op ∧
    countBelow (2 ^ 16) (fun n => decide (opcodeOf16 isa n = some op)) = words16 isa op :=
  ⟨(count32 isa op).trans (words_sizes isa op).1, (count16 isa op).trans (words_sizes isa op).2.2.1⟩

open Classical in
/-- For every opcode, how many words are decoded as it although the manuals do not assign them to it. -/
theorem C86_mistaken (isa : Isa) (op : OpcodeKind) :
    countBelow (2 ^ 32) (fun n => decide (opcodeOf32 isa n = some op ∧ ¬ official32 isa n op)) = mistaken32 isa op ∧
    countBelow (2 ^ 16) (fun n => decide (opcodeOf16 isa n = some op ∧ ¬ official16 isa n op)) = mistaken16 isa op :=
  ⟨(mistaken32_count isa op).trans (words_sizes isa op).2.1,
    (mistaken16_count isa op).trans (words_sizes isa op).2.2.2⟩

/-- How many words are accepted. -/
theorem C86_accepted :
    countBelow (2 ^ 32) (fun n => (opcodeOf32 .Rv32 n).isSome) = 274666531 ∧
    countBelow (2 ^ 32) (fun n => (opcodeOf32 .Rv64 n).isSome) = 297604131 ∧
    countBelow (2 ^ 16) (fun n => (opcodeOf16 .Rv32 n).isSome) = 30463 ∧
    countBelow (2 ^ 16) (fun n => (opcodeOf16 .Rv64 n).isSome) = 38783 := by
  refine ⟨?_, ?_, ?_, ?_⟩
  all_goals rw [countBelow_sum _ _ allOpcodes allOpcodes_nodup fun _ a _ => allOpcodes_mem a]
  · simp only [(C86_opcodes ..).1]; decide +kernel
  · simp only [(C86_opcodes ..).1]; decide +kernel
  · simp only [(C86_opcodes ..).2]; decide +kernel
  · simp only [(C86_opcodes ..).2]; decide +kernel

open Classical in
/-- How many words are accepted as an opcode that they do not encode. -/
theorem C86_wrong :
    countBelow (2 ^ 32) (fun n => decide (∃ op, opcodeOf32 .Rv32 n = some op ∧ ¬ official32 .Rv32 n op)) = 54433563 ∧
    countBelow (2 ^ 32) (fun n => decide (∃ op, opcodeOf32 .Rv64 n = some op ∧ ¬ official32 .Rv64 n op)) = 58623867 ∧
    countBelow (2 ^ 16) (fun n => decide (∃ op, opcodeOf16 .Rv32 n = some op ∧ ¬ official16 .Rv32 n op)) = 1669 ∧
    countBelow (2 ^ 16) (fun n => decide (∃ op, opcodeOf16 .Rv64 n = some op ∧ ¬ official16 .Rv64 n op)) = 261 := by
  refine ⟨?_, ?_, ?_, ?_⟩
  all_goals rw [countBelow_some]
  · simp only [(C86_mistaken ..).1]; decide +kernel
  · simp only [(C86_mistaken ..).1]; decide +kernel
  · simp only [(C86_mistaken ..).2]; decide +kernel
  · simp only [(C86_mistaken ..).2]; decide +kernel

open Classical in
/-- How many words of the manuals are not decoded as the opcode they encode: no 32-bit word, and 31 halfwords. -/
theorem C86_lost (isa : Isa) :
    countBelow (2 ^ 32) (fun n => decide (∃ op, official32 isa n op ∧ opcodeOf32 isa n ≠ some op)) = 0 ∧
    countBelow (2 ^ 16) (fun n => decide (∃ op, official16 isa n op ∧ opcodeOf16 isa n ≠ some op)) = 31 := by
  refine ⟨countBelow_zero fun n hn => ?_, ?_⟩
  · rw [decide_eq_false_iff_not]
    exact fun ⟨op, h, hne⟩ => hne ((opcodeOf32_iff hn).2 (official_accepts32 _ _ _ h))
  · let r : Region := [cube16 2 4 (.notIn [0]) (.isIn [0]) (.isIn [1])]
    refine Eq.trans (countBelow_congr fun n hn => ?_) (region_count r (by decide +kernel))
    have hr : Region.has r n = true ↔ official16 isa n (.C .ADD) ∧ fld n 11 7 = 0 := by
      simp [r, region_one, official16, cube16, Cube.has, Slot.has, quad, fld, Nat.div_div_eq_div_mul]
      omega
    rw [Bool.eq_iff_iff, decide_eq_true_iff, hr]
    constructor
    · intro ⟨op, h, hne⟩
      by_cases hc : op = .C .ADD ∧ fld n 11 7 = 0
      · exact ⟨hc.1 ▸ h, hc.2⟩
      · exact absurd ((opcodeOf16_iff hn).2 (official16_accepts16 _ _ _ h hc)) hne
    · intro ⟨h, h0⟩
      exact ⟨_, h, fun e => ((opcodeOf16_iff hn).1 e).2.2.1 h0⟩

/-- The word with `funct3 = 1` and the major opcode of `jalr` is one of those accepted wrongly; so is the all-ones
`funct7` with the other bits of `and`. -/
example : opcodeOf32 .Rv32 0x00001067 = some (.BaseI .JALR) ∧ opcodeOf32 .Rv64 0xfe007033 = some (.BaseI .AND) ∧
    opcodeOf16 .Rv64 0x9006 = some (.C .EBREAK) := by decide +kernel

/-- The counts of the two kinds of opcode: `lui` leaves 25 bits free, and `jalr` is accepted as often. -/
example : countBelow (2 ^ 32) (fun n => decide (opcodeOf32 .Rv32 n = some (.BaseI .LUI))) = 33554432 ∧
    countBelow (2 ^ 32) (fun n => decide (opcodeOf32 .Rv32 n = some (.BaseI .JALR))) = 33554432 :=
  ⟨(C86_opcodes ..).1, (C86_opcodes ..).1⟩

end Raki
