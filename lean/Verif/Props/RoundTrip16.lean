import Verif.Lemmas.Asm16
import Verif.Lemmas.Official
import Verif.Props.Operands
/-!
# Round trips between halfwords and compressed instruction values (C30, C31, C45)
-/

namespace Raki

open Spec

set_option linter.unusedSimpArgs false

theorem toNat_ofNat16 (n : Nat) (h : n < 2 ^ 16) : (BitVec.ofNat 16 n).toNat = n := by
  rw [BitVec.toNat_ofNat, Nat.mod_eq_of_lt h]

theorem asm16_official (isa : Isa) (i : Instruction) (h : WF16 isa i) :
    asm16 i < 2 ^ 16 ∧ official16 isa (asm16 i) i.opc ∧ accepts16 isa (asm16 i) i.opc ∧
      i = value16 (asm16 i) i.opc := by
  obtain ⟨he, hc, hf, ho⟩ := h
  obtain ⟨h1, h2, h3, h4, h5, h6⟩ := encode16_spec isa i he ho (asm16 i) rfl
  refine ⟨h1, h2, official16_accepts16 isa _ _ h2 ?_, ?_⟩
  · rintro ⟨hop, h0⟩
    have e3 : some (fld (asm16 i) 11 7) = i.rd := by rw [← h3, hop]; rfl
    simp only [operands16, hop] at ho
    obtain ⟨⟨x, hx, hx1, -⟩, -⟩ := ho
    rw [← e3] at hx
    injection hx with hx
    omega
  · rcases i with ⟨opc, rd, rs1, rs2, imm, ifmt, ic⟩
    simp only [value16] at *
    rw [h3, h4, h5, h6, hf, hc]

/-- C30.  Assembling a well-formed compressed instruction value and decoding the halfword gives the
value back. -/
theorem C30_encode_decode (isa : Isa) (i : Instruction) (h : WF16 isa i) :
    asm16 i < 2 ^ 16 ∧ U16.decode (BitVec.ofNat 16 (asm16 i)) isa = .ok i := by
  obtain ⟨h1, -, h3, h4⟩ := asm16_official isa i h
  refine ⟨h1, (decode16_ok_iff _ _ _).2 ?_⟩
  rw [toNat_ofNat16 _ h1]
  exact ⟨h3, h4⟩

example : WF16 .Rv64 ⟨.C .BEQZ, none, some 8, none, some (-6), .CbFormat, true⟩ :=
  ⟨trivial, rfl, rfl, rfl, ⟨8, rfl, by decide⟩, rfl, ⟨-6, rfl, by simp [immRange16]⟩⟩
example : asm16 ⟨.C .BEQZ, none, some 8, none, some (-6), .CbFormat, true⟩ = 0xdc6d := by decide

theorem fld_12_5 (h : Nat) :
    fld h 12 5 = fld h 12 11 * 2 ^ 6 + fld h 10 7 * 2 ^ 2 + fld h 6 6 * 2 + fld h 5 5 := by
  simp only [fld]; omega

theorem fld_6_2 (h : Nat) :
    fld h 6 2 = fld h 6 6 * 2 ^ 4 + fld h 5 5 * 2 ^ 3 + fld h 4 3 * 2 + fld h 2 2 := by
  simp only [fld]; omega

theorem official_wf16 (h : BitVec 16) (isa : Isa) (i : Instruction) (hd : U16.decode h isa = .ok i)
    (ho : official16 isa h.toNat i.opc) : WF16 isa i := by
  obtain ⟨ha, hi⟩ := (decode16_ok_iff h isa i).1 hd
  obtain ⟨e1, e2, e3⟩ := C12_registers16 h isa i hd
  have e4 := C15_compressed_immediates h isa i hd
  have hrange := fun z (hz : imm16 h.toNat i.opc = some z) => immRange16_of h.toNat i.opc z hz
  refine ⟨?_, by rw [hi]; rfl, by rw [hi]; rfl, ?_⟩
  · clear hi hd ha e1 e2 e3 e4 hrange
    revert ho
    rcases i.opc with o | o | o | o | o | o | o | o | o | o
    all_goals cases o
    all_goals simp +contextual [official16, existsIn16]
  · have b1 := fld_lt h.toNat 11 7
    have b2 := fld_lt h.toNat 9 7
    have b3 := fld_lt h.toNat 4 2
    have b4 := fld_lt h.toNat 6 2
    have b5 := fld_lt h.toNat 12 12
    have b66 := fld_lt h.toNat 6 6
    have b55 := fld_lt h.toNat 5 5
    have b43 := fld_lt h.toNat 4 3
    have b22 := fld_lt h.toNat 2 2
    have d62 := fld_6_2 h.toNat
    clear hi hd
    revert e1 e2 e3 e4 hrange ha ho
    obtain ⟨opc, rd, rs1, rs2, imm, ifmt, ic⟩ := i
    simp only
    rcases opc with o | o | o | o | o | o | o | o | o | o
    case C =>
      cases o
      all_goals intro ho ha e1 e2 e3 e4 hrange
      all_goals simp only [rd16, rs116, rs216, imm16, regC, Option.some.injEq, forall_eq',
        reduceCtorEq] at e1 e2 e3 e4 hrange
      all_goals subst e1 e2 e3 e4
      all_goals simp only [official16, accepts16, quad] at ho ha
      all_goals simp only [operands16, isReg, isReg1, isRegC, immSat, Option.some.injEq,
        exists_eq_left', true_and, and_true, ne_eq]
      case ADDI4SPN =>
        refine ⟨by omega, hrange, ?_⟩
        have h5 := fld_12_5 h.toNat
        simp only [uimmCIW]; omega
      case ADDI16SP =>
        have hs : imm16sp h.toNat ≠ 0 := by
          intro h0
          have := ofI_sext 10 (fld h.toNat 12 12 * 2 ^ 9 + fld h.toNat 6 6 * 2 ^ 4
            + fld h.toNat 5 5 * 2 ^ 6 + fld h.toNat 4 3 * 2 ^ 7 + fld h.toNat 2 2 * 2 ^ 5) (by omega)
          rw [imm16sp] at h0
          rw [h0] at this
          have e0 : ofI 10 0 = 0 := rfl
          omega
        exact ⟨ho.2.1, ho.2.1, hrange, hs⟩
      case LUI =>
        have hs : immCLui h.toNat ≠ 0 := by
          intro h0
          have := ofI_sext 18 (fld h.toNat 12 12 * 2 ^ 17 + fld h.toNat 6 2 * 2 ^ 12) (by omega)
          rw [immCLui] at h0
          rw [h0] at this
          have e0 : ofI 18 0 = 0 := rfl
          omega
        exact ⟨b1, ho.2.1, hrange, hs⟩
      case SRLI | SRAI =>
        refine ⟨by omega, hrange, fun hi => ?_⟩
        have := ho.2.2 hi
        simp only [uimmCI]; omega
      case SLLI =>
        refine ⟨by omega, hrange, fun hi => ?_⟩
        have := ho.2 hi
        simp only [uimmCI]; omega
      case JAL | J | NOP => exact hrange
      all_goals first
        | (refine ⟨?_, ?_, hrange⟩ <;> omega)
        | (refine ⟨?_, hrange⟩ <;> omega)
        | omega
    case Zicfiss =>
      cases o
      all_goals intro ho ha e1 e2 e3 e4 hrange
      all_goals simp only [rd16, rs116, rs216, imm16] at e1 e2 e3 e4
      case C_SSPUSH | C_SSPOPCHK => exact ⟨e1, e2, e3, e4⟩
      all_goals exact ho.elim
    all_goals (intro ho; exact ho.elim)

/-- C30.  The well-formed compressed values are exactly those the decoder produces on standard
encodings. -/
theorem C30_wellformed_iff (isa : Isa) (i : Instruction) :
    WF16 isa i ↔ ∃ h : BitVec 16, official16 isa h.toNat i.opc ∧ U16.decode h isa = .ok i := by
  constructor
  · intro h
    obtain ⟨h1, h2, -⟩ := asm16_official isa i h
    exact ⟨BitVec.ofNat 16 (asm16 i), by rw [toNat_ofNat16 _ h1]; exact h2,
      (C30_encode_decode isa i h).2⟩
  · rintro ⟨w, h1, h2⟩
    exact official_wf16 w isa i h2 h1

/-! ## From halfwords -/

/-- C31 is false: `c.ebreak` ignores bits 6..2. -/
theorem C31_refuted : ¬ ∀ (h : BitVec 16) (isa : Isa) (i : Instruction),
    U16.decode h isa = .ok i → asm16 i = h.toNat := by
  intro h
  have := h 0x9006 .Rv64 _ rfl
  revert this
  decide

/-- C31 for every accepted halfword (reserved encodings included) except those reported as `c.ebreak`
with bits 6..2 not zero.  Missing: those 31 halfwords, for which the statement fails. -/
theorem C31_decode_encode_partial (h : BitVec 16) (isa : Isa) (i : Instruction)
    (hd : U16.decode h isa = .ok i) (hb : i.opc = .C .EBREAK → fld h.toNat 6 2 = 0) :
    asm16 i = h.toNat := by
  obtain ⟨ha, -⟩ := (decode16_ok_iff h isa i).1 hd
  obtain ⟨e1, e2, e3⟩ := C12_registers16 h isa i hd
  have e4 := C15_compressed_immediates h isa i hd
  rw [asm16, e1, e2, e3, e4]
  exact encode16_fields isa h.toNat h.isLt i.opc ha hb

/-- C31, injectivity. -/
theorem C31_injective_partial (h h' : BitVec 16) (isa isa' : Isa) (i : Instruction)
    (hd : U16.decode h isa = .ok i) (hd' : U16.decode h' isa' = .ok i) (hb : i.opc ≠ .C .EBREAK) :
    h = h' := by
  apply BitVec.eq_of_toNat_eq
  rw [← C31_decode_encode_partial h isa i hd (fun e => absurd e hb),
    C31_decode_encode_partial h' isa' i hd' (fun e => absurd e hb)]

example : ∃ i, U16.decode 0x7139 .Rv32 = .ok i ∧ i.opc ≠ .C .EBREAK ∧ asm16 i = 0x7139 :=
  ⟨_, rfl, by decide, by decide⟩

/-- C45.  Which other halfwords decode to the same value: none, except among the 32 reported as
`c.ebreak`. -/
theorem C45_same_value_iff (h h' : BitVec 16) (isa : Isa) (i : Instruction)
    (hd : U16.decode h isa = .ok i) :
    U16.decode h' isa = .ok i ↔
      h' = h ∨ (i.opc = .C .EBREAK ∧ fld h'.toNat 1 0 = 2 ∧ fld h'.toNat 15 13 = 4 ∧
        fld h'.toNat 12 12 = 1 ∧ fld h'.toNat 11 7 = 0) := by
  constructor
  · intro hd'
    by_cases hb : i.opc = .C .EBREAK
    · obtain ⟨ha, -⟩ := (decode16_ok_iff h' isa i).1 hd'
      rw [hb] at ha
      exact .inr ⟨hb, ha.1.1, ha.1.2, ha.2.1, ha.2.2⟩
    · exact .inl (C31_injective_partial h' h isa isa i hd' hd hb)
  · rintro (rfl | ⟨hb, h1, h2, h3, h4⟩)
    · exact hd
    · obtain ⟨-, hi⟩ := (decode16_ok_iff h isa i).1 hd
      refine (decode16_ok_iff h' isa i).2 ⟨?_, ?_⟩
      · rw [hb]; exact ⟨⟨h1, h2⟩, h3, h4⟩
      · rw [hi]
        simp only [hb, value16, rd16, rs116, rs216, imm16, instFormat16]

example : ∃ i, U16.decode 0x9002 .Rv64 = .ok i ∧ U16.decode 0x907e .Rv64 = .ok i := ⟨_, rfl, rfl⟩

end Raki
