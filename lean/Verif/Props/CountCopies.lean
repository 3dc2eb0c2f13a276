import Verif.Props.CountValues
/-!
# How many words each instruction has

For every instruction: the words that are decoded as it are counted.
-/

namespace Raki

open Spec

/-- The number of words decoded as the same instruction as a given one. -/
def copies32 : OpcodeKind → Nat
  | .BaseI .JALR => 8
  | .BaseI .SLL | .BaseI .SLT | .BaseI .SLTU | .BaseI .XOR | .BaseI .OR | .BaseI .AND => 127
  | .BaseI .SLLIW => 128
  | .BaseI .SLLW => 2
  | .BaseI .ECALL | .BaseI .EBREAK | .Zicfiss .SSPUSH => 1024
  | .A .LR_W | .A .LR_D | .Zicfiss .SSPOPCHK | .Zicntr _ | .Priv .SFENCE_VMA => 32
  | .Zicfiss .SSAMOSWAP_W | .Zicfiss .SSAMOSWAP_D => 4
  | _ => 1

/-- The number of halfwords, likewise. -/
def copies16 : OpcodeKind → Nat
  | .C .EBREAK => 32
  | _ => 1

/-- The words decoded as the same instruction as the word `v` with the opcode: the fields that are ignored are free, the
others are those of `v`. -/
def fibre32 (v : Nat) (op : OpcodeKind) : Cube :=
  let m : Slot := .isIn [fld v 6 0]
  let d : Slot := .isIn [fld v 11 7]
  let f : Slot := .isIn [fld v 14 12]
  let s : Slot := .isIn [fld v 19 15]
  let r : Slot := .isIn [fld v 24 20]
  let t : Slot := .isIn [fld v 31 25]
  match op with
  | .BaseI .JALR => cube32 m d .any s (top7 r t)
  | .BaseI .SLL | .BaseI .SLT | .BaseI .SLTU | .BaseI .XOR | .BaseI .OR | .BaseI .AND =>
    cube32 m d f s (top7 r (.notIn [1]))
  | .BaseI .SLLIW => cube32 m d f s (top7 r .any)
  | .BaseI .SLLW => cube32 m d f s (top7 r (.isIn [0, 0x20]))
  | .BaseI .ECALL | .BaseI .EBREAK | .Zicfiss .SSPUSH => cube32 m .any f .any (top7 r t)
  | .A .LR_W | .A .LR_D => cube32 m d f s (top7 .any t)
  | .Zicfiss .SSPOPCHK | .Priv .SFENCE_VMA => cube32 m .any f s (top7 r t)
  | .Zicntr _ => cube32 m d f .any (top7 r t)
  | .Zicfiss .SSAMOSWAP_W | .Zicfiss .SSAMOSWAP_D => cube32 m d f s (top7 r (.isIn [0x24, 0x25, 0x26, 0x27]))
  | _ => cube32 m d f s (top7 r t)

theorem fibre32_count (v : Nat) (op : OpcodeKind) : countBelow (2 ^ 32) (fibre32 v op).has = copies32 op := by
  have l := fields_lt v
  have key : (fibre32 v op).ok = true ∧ (fibre32 v op).width = 32 ∧ (fibre32 v op).size = copies32 op := by
    unfold fibre32 copies32
    split <;> simp [cube32, top7, Cube.ok, Cube.width, Cube.size, Slot.ok, Slot.size, l]
  rw [← key.2.1, cube_count _ key.1, key.2.2]

/-- The words accepted as the opcode with the operands of a given one. -/
theorem fibre32_has (isa : Isa) (op : OpcodeKind) (r : Row) (hr : row32 op = some r) (n v : Nat) (hn : n < 2 ^ 32)
    (hv : v < 2 ^ 32) (h : Region.has (region32 isa op) v = true) : (fibre32 v op).has n = true ↔
      Region.has (region32 isa op) n = true ∧ ∀ p ∈ operandFields32 isa r.fmt, fld n p.1 p.2 = fld v p.1 p.2 := by
  by_cases hg : gated64 op = true ∧ isa = .Rv32
  · obtain ⟨hg, rfl⟩ := hg
    simp only [region32, hg, region_nil] at h
  by_cases ha : ambiguous32 op = false
  · have hc := canon32_same hg ha
    have hf : fibre32 v op = cube32 (.isIn [fld v 6 0]) (.isIn [fld v 11 7]) (.isIn [fld v 14 12]) (.isIn [fld v 19 15])
        (top7 (.isIn [fld v 24 20]) (.isIn [fld v 31 25])) := by
      unfold fibre32
      split <;> first | rfl | cases ha
    rw [hf, has_top7]
    simp only [isIn_has, List.mem_singleton]
    constructor
    · intro e
      rw [fields_eq hn hv e]
      exact ⟨h, fun _ _ => rfl⟩
    · intro ⟨h1, h2⟩
      rw [canon32_inj isa op r hr n v hn hv (hc ▸ h1) (hc ▸ h) h2]
      exact ⟨rfl, rfl, rfl, rfl, rfl, rfl⟩
  obtain ⟨t1, t2, t3, t4, t5, t6⟩ := fields_top n
  obtain ⟨u1, u2, u3, u4, u5, u6⟩ := fields_top v
  have ln := fields_lt n
  have lv := fields_lt v
  revert hr h hg
  unfold ambiguous32 at ha
  split at ha
  case h_20 => exact absurd rfl ha
  case' h_18 o => cases o
  all_goals
    clear ha
    intro hr h hg
    simp only [row32, Option.some.injEq] at hr
    subst hr
    cases isa <;> (first | exact absurd ⟨rfl, rfl⟩ hg | skip) <;>
      simp only [fibre32, region32, gated64, row32, cubeOf, region_cons, region_nil, has_top12, has_top7, has_top5,
        isIn_has, notIn_has, any_has, List.mem_cons, List.not_mem_nil, or_false, true_and, and_true, operandFields32,
        forall_eq_or_imp, forall_eq, false_imp_iff, implies_true] at h ⊢ <;> omega

/-- C102.  How many words are decoded as an instruction, for every instruction that some word is decoded as. -/
theorem C102_words (w : BitVec 32) (isa : Isa) (i : Instruction) (h : U32.decode w isa = .ok i) :
    countBelow (2 ^ 32) (fun n => decide (U32.decode (BitVec.ofNat 32 n) isa = .ok i)) = copies32 i.opc := by
  rw [← fibre32_count w.toNat i.opc]
  refine countBelow_congr fun n hn => ?_
  obtain ⟨r, hr, ha, -⟩ := (decode32_ok_iff ..).1 h
  rw [Bool.eq_iff_iff, decide_eq_true_iff, C44_same_value_iff w _ isa i r h hr,
    fibre32_has isa i.opc r hr n w.toNat hn w.isLt ((region32_has ..).2 ha), region32_has, BitVec.toNat_ofNat,
    Nat.mod_eq_of_lt hn]

/-- C102.  How many halfwords are decoded as an instruction. -/
theorem C102_halfwords (h : BitVec 16) (isa : Isa) (i : Instruction) (hd : U16.decode h isa = .ok i) :
    countBelow (2 ^ 16) (fun n => decide (U16.decode (BitVec.ofNat 16 n) isa = .ok i)) = copies16 i.opc := by
  by_cases hb : i.opc = .C .EBREAK
  · rw [hb]
    refine Eq.trans (countBelow_congr fun n hn => ?_) (region_count (k := 16)
      [[(2, .isIn [2]), (5, .any), (5, .isIn [0]), (1, .isIn [1]), (3, .isIn [4])]] (by decide))
    rw [Bool.eq_iff_iff, decide_eq_true_iff, C45_same_value_iff h _ isa i hd]
    have hh : fld h.toNat 1 0 = 2 ∧ fld h.toNat 15 13 = 4 ∧ fld h.toNat 12 12 = 1 ∧ fld h.toNat 11 7 = 0 := by
      have ha := ((decode16_ok_iff h isa i).1 hd).1
      rw [hb] at ha
      simpa [accepts16, quad, and_assoc] using ha
    rw [region_one]
    simp only [Cube.has, Bool.and_eq_true, isIn_has, any_has, List.mem_singleton, Nat.div_div_eq_div_mul, and_true,
      true_and, BitVec.toNat_ofNat, Nat.mod_eq_of_lt hn, hb]
    constructor
    · rintro (e | e)
      · have e := congrArg BitVec.toNat e
        rw [BitVec.toNat_ofNat, Nat.mod_eq_of_lt hn] at e
        rw [← e] at hh
        simp only [fld] at hh
        omega
      · simp only [fld] at e
        omega
    · intro e
      refine .inr ?_
      simp only [fld]
      omega
  · have e : copies16 i.opc = 1 := by
      unfold copies16
      split
      · contradiction
      · rfl
    rw [e, ← countBelow_eq h.isLt]
    refine countBelow_congr fun n hn => ?_
    rw [Bool.eq_iff_iff, decide_eq_true_iff, C45_same_value_iff h _ isa i hd, beq_iff_eq]
    constructor
    · rintro (e | ⟨e, -⟩)
      · have e := congrArg BitVec.toNat e
        rwa [BitVec.toNat_ofNat, Nat.mod_eq_of_lt hn] at e
      · contradiction
    · rintro rfl
      exact .inl (by simp)

/-- C102.  The words of an opcode are its instructions, each with the same number of words. -/
theorem C102_product (isa : Isa) (op : OpcodeKind) : words32 isa op = distinct32 isa op * copies32 op ∧
    words16 isa op = distinct16 isa op * copies16 op := by
  have h : (allOpcodes.all fun op => [Isa.Rv32, .Rv64].all fun isa => decide <|
      words32 isa op = distinct32 isa op * copies32 op ∧ words16 isa op = distinct16 isa op * copies16 op) = true := by
    decide +kernel
  exact of_decide_eq_true
    (List.all_eq_true.1 (List.all_eq_true.1 h op (allOpcodes_mem op)) isa (by cases isa <;> simp))

/-- The words of `ecall`, and the one word of `add`. -/
example : (∃ i, U32.decode 0x00000073#32 .Rv64 = .ok i ∧ copies32 i.opc = 1024) ∧
    (∃ i, U32.decode 0x00c58533#32 .Rv64 = .ok i ∧ copies32 i.opc = 1) ∧
    ∃ i, U16.decode 0x9002#16 .Rv64 = .ok i ∧ copies16 i.opc = 32 :=
  ⟨⟨_, rfl, rfl⟩, ⟨_, rfl, rfl⟩, _, rfl, rfl⟩

end Raki
