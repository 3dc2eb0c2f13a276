import Verif.Lemmas.Release
import Verif.Props.Total
/-!
# Overflow checks do not affect the decoder

`Verif.Release.Decode` models the crate as built without overflow checks.
-/

namespace Raki

/-- C50.  Decoding gives the same outcome with and without overflow checks. -/
theorem C50_decode32 (w : BitVec 32) (isa : Isa) : Release.U32.decode w isa = U32.decode w isa :=
  (decode32_refines w isa).eq (decode32_no_panic w isa)

theorem C50_decode16 (w : BitVec 16) (isa : Isa) : Release.U16.decode w isa = U16.decode w isa :=
  (decode16_refines w isa).eq (decode16_no_panic w isa)

/-- The conversion too, including where it panics: its panics are failed conversions, not overflows. -/
theorem C50_try_from (n : Nat) : Release.try_from n = try_from n := by
  unfold Release.try_from try_from
  split
  · congr 1; funext w; exact C50_decode32 _ _
  · congr 1; funext w; exact C50_decode16 _ _

theorem C50_opcode32 (w : BitVec 32) (isa : Isa) :
    Release.U32.parse_opcode w isa = U32.parse_opcode w isa := by
  refine (opcode32_refines w isa).eq fun h => decode32_no_panic w isa ?_
  unfold U32.decode; rw [h]; rfl

theorem C50_opcode16 (w : BitVec 16) (isa : Isa) :
    Release.U16.parse_opcode w isa = U16.parse_opcode w isa := by
  refine (opcode16_refines w isa).eq fun h => ?_
  by_cases h0 : w.toNat = 0
  · have : w = 0 := BitVec.eq_of_toNat_eq h0
    subst this
    cases isa <;> cases h
  · refine decode16_no_panic w isa ?_
    unfold U16.decode; rw [if_neg h0, h]; rfl

/-- Each operand method gives the same outcome for every word and every opcode, even one that is not
the word's own; its panics are `unreachable!`, not overflows. -/
theorem C50_operands32 (w : BitVec 32) (op : OpcodeKind) (isa : Isa) :
    Release.U32.parse_rd w op = U32.parse_rd w op ∧ Release.U32.parse_rs1 w op = U32.parse_rs1 w op ∧
    Release.U32.parse_rs2 w op = U32.parse_rs2 w op ∧
    Release.U32.parse_imm w op isa = U32.parse_imm w op isa := by
  obtain ⟨h1, h2, h3, h4⟩ := operand32_refines w op isa
  rcases row32_cases op with ⟨r, hr⟩ | ⟨o, rfl⟩ | hz
  · refine ⟨h1.eq ?_, h2.eq ?_, h3.eq ?_, h4.eq ?_⟩
    · rw [parse_rd32_eq w op r hr]; nofun
    · rw [parse_rs132_eq w op r hr]; nofun
    · rw [parse_rs232_eq w op r hr]; nofun
    · rw [parse_imm32_eq w isa op r hr]; nofun
  · exact ⟨rfl, rfl, rfl, rfl⟩
  · have s1 := (slice32_refines w 11 7).eq
      (by rw [U32.slice_eq w 11 7 (by decide) (by decide) (by decide)]; nofun)
    have s2 := (slice32_refines w 19 15).eq
      (by rw [U32.slice_eq w 19 15 (by decide) (by decide) (by decide)]; nofun)
    have s3 := (slice32_refines w 24 20).eq
      (by rw [U32.slice_eq w 24 20 (by decide) (by decide) (by decide)]; nofun)
    rcases hz with rfl | rfl <;>
      simp [U32.parse_rd, U32.parse_rs1, U32.parse_rs2, U32.parse_imm, Zicfiss.parse_rd,
        Zicfiss.parse_rs1, Zicfiss.parse_rs2, Zicfiss.parse_imm, Release.U32.parse_rd,
        Release.U32.parse_rs1, Release.U32.parse_rs2, Release.U32.parse_imm, Release.Zicfiss.parse_rd,
        Release.Zicfiss.parse_rs1, Release.Zicfiss.parse_rs2, Release.Zicfiss.parse_imm, s1, s2, s3]

theorem C50_operands16 (w : BitVec 16) (op : OpcodeKind) (isa : Isa) :
    Release.U16.parse_rd w op = U16.parse_rd w op ∧ Release.U16.parse_rs1 w op = U16.parse_rs1 w op ∧
    Release.U16.parse_rs2 w op = U16.parse_rs2 w op ∧
    Release.U16.parse_imm w op isa = U16.parse_imm w op isa := by
  obtain ⟨h1, h2, h3, h4⟩ := operand16_refines w op isa
  rcases op with o | o | o | o | o | o | o | o | o | o
  case C =>
    have hc : isC (.C o) := trivial
    refine ⟨h1.eq ?_, h2.eq ?_, h3.eq ?_, h4.eq ?_⟩
    · rw [parse_rd16_eq w _ hc]; nofun
    · rw [parse_rs116_eq w _ hc]; nofun
    · rw [parse_rs216_eq w _ hc]; nofun
    · rw [parse_imm16_eq w isa _ hc]; nofun
  all_goals exact ⟨rfl, rfl, rfl, rfl⟩

-- The two builds are different programs: on a range of 32 bits, which the decoder never asks for, the
-- bit-range helper panics in one and not in the other.
example : U32.slice 0x1234 31 0 = .panic ∧ Release.U32.slice 0x1234 31 0 = .ok 0x1234 := ⟨rfl, rfl⟩
example : to_signed_nbit 5 32 = .panic ∧ Release.to_signed_nbit 5 32 ≠ .panic := ⟨rfl, by decide⟩
example : ∃ i, Release.U32.decode 0x00500093 .Rv64 = .ok i ∧ i.imm = some 5 := ⟨_, rfl, rfl⟩
example : Release.try_from 0x100000003 = .panic := rfl

end Raki
