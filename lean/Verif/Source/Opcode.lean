import Verif.Source.Tactics
/-!
# Running the opcode parsers of the source
-/

namespace Raki.Source
open Raki.Spec

set_option linter.unusedSimpArgs false
set_option maxHeartbeats 1000000

theorem base_i_bit_32_parse_opcode_eq (md : Build) (n : Nat) (w : BitVec 32) (isa : Isa) :
    call crate md (n + 2) .base_i_bit_32 .parse_opcode [.u32 w, emb isa] =
      outR (BaseI.parse_opcode w isa) := by
  rw [call_base_i_bit_32_parse_opcode]
  simp only [base_i_bit_32_parse_opcode, BaseI.parse_opcode]
  fields
  rl []
  generalize fld w.toNat 6 0 = f6_0
  generalize fld w.toNat 14 12 = f14_12
  generalize fld w.toNat 31 25 = f31_25
  generalize fld w.toNat 31 26 = f31_26
  generalize fld w.toNat 24 20 = f24_20
  cases isa
  all_goals arms []

theorem m_extension_bit_32_parse_opcode_eq (md : Build) (n : Nat) (w : BitVec 32) (isa : Isa) :
    call crate md (n + 2) .m_extension_bit_32 .parse_opcode [.u32 w, emb isa] =
      outR (M.parse_opcode w isa) := by
  rw [call_m_extension_bit_32_parse_opcode]
  simp only [m_extension_bit_32_parse_opcode, M.parse_opcode]
  fields
  rl []
  generalize fld w.toNat 6 0 = f6_0
  generalize fld w.toNat 14 12 = f14_12
  cases isa
  all_goals arms []

theorem a_extension_bit_32_parse_opcode_eq (md : Build) (n : Nat) (w : BitVec 32) (isa : Isa) :
    call crate md (n + 2) .a_extension_bit_32 .parse_opcode [.u32 w, emb isa] =
      outR (A.parse_opcode w isa) := by
  rw [call_a_extension_bit_32_parse_opcode]
  simp only [a_extension_bit_32_parse_opcode, A.parse_opcode]
  fields
  rl []
  generalize fld w.toNat 6 0 = f6_0
  generalize fld w.toNat 14 12 = f14_12
  generalize fld w.toNat 31 27 = f31_27
  cases isa
  all_goals arms []

theorem zifencei_extension_bit_32_parse_opcode_eq (md : Build) (n : Nat) (w : BitVec 32) :
    call crate md (n + 2) .zifencei_extension_bit_32 .parse_opcode [.u32 w] =
      outR (Zifencei.parse_opcode w) := by
  rw [call_zifencei_extension_bit_32_parse_opcode]
  simp only [zifencei_extension_bit_32_parse_opcode, Zifencei.parse_opcode]
  fields
  rl []
  generalize fld w.toNat 6 0 = f6_0
  arms []

theorem zicboz_extension_bit_32_parse_opcode_eq (md : Build) (n : Nat) (w : BitVec 32) :
    call crate md (n + 2) .zicboz_extension_bit_32 .parse_opcode [.u32 w] =
      outR (Zicboz.parse_opcode w) := by
  rw [call_zicboz_extension_bit_32_parse_opcode]
  simp only [zicboz_extension_bit_32_parse_opcode, Zicboz.parse_opcode]
  fields
  rl []
  generalize fld w.toNat 6 0 = f6_0
  generalize fld w.toNat 14 12 = f14_12
  generalize fld w.toNat 11 7 = f11_7
  obtain ⟨x31_20, hx31_20, hy31_20⟩ := widen16 w.toNat 31 20 (by decide)
  rw [hx31_20, hy31_20]
  clear hx31_20 hy31_20
  arms []

theorem zicsr_extension_bit_32_parse_opcode_eq (md : Build) (n : Nat) (w : BitVec 32) :
    call crate md (n + 2) .zicsr_extension_bit_32 .parse_opcode [.u32 w] =
      outR (Zicsr.parse_opcode w) := by
  rw [call_zicsr_extension_bit_32_parse_opcode]
  simp only [zicsr_extension_bit_32_parse_opcode, Zicsr.parse_opcode]
  fields
  rl []
  generalize fld w.toNat 6 0 = f6_0
  generalize fld w.toNat 14 12 = f14_12
  arms []

theorem zicntr_extension_bit_32_parse_opcode_eq (md : Build) (n : Nat) (w : BitVec 32) :
    call crate md (n + 2) .zicntr_extension_bit_32 .parse_opcode [.u32 w] =
      outR (Zicntr.parse_opcode w) := by
  rw [call_zicntr_extension_bit_32_parse_opcode]
  simp only [zicntr_extension_bit_32_parse_opcode, Zicntr.parse_opcode]
  fields
  rl []
  generalize fld w.toNat 6 0 = f6_0
  generalize fld w.toNat 14 12 = f14_12
  obtain ⟨x31_20, hx31_20, hy31_20⟩ := widen16 w.toNat 31 20 (by decide)
  rw [hx31_20, hy31_20]
  clear hx31_20 hy31_20
  arms []

theorem zicfiss_extension_bit_32_parse_opcode_eq (md : Build) (n : Nat) (w : BitVec 32) :
    call crate md (n + 2) .zicfiss_extension_bit_32 .parse_opcode [.u32 w] =
      outR (Zicfiss.parse_opcode w) := by
  rw [call_zicfiss_extension_bit_32_parse_opcode]
  simp only [zicfiss_extension_bit_32_parse_opcode, Zicfiss.parse_opcode]
  fields
  rl []
  generalize fld w.toNat 6 0 = f6_0
  generalize fld w.toNat 14 12 = f14_12
  generalize fld w.toNat 19 15 = f19_15
  obtain ⟨x31_20, hx31_20, hy31_20⟩ := widen16 w.toNat 31 20 (by decide)
  rw [hx31_20, hy31_20]
  clear hx31_20 hy31_20
  arms []

theorem priv_extension_bit_32_parse_opcode_eq (md : Build) (n : Nat) (w : BitVec 32) :
    call crate md (n + 2) .priv_extension_bit_32 .parse_opcode [.u32 w] =
      outR (Priv.parse_opcode w) := by
  rw [call_priv_extension_bit_32_parse_opcode]
  simp only [priv_extension_bit_32_parse_opcode, Priv.parse_opcode]
  fields
  rl []
  generalize fld w.toNat 6 0 = f6_0
  generalize fld w.toNat 14 12 = f14_12
  generalize fld w.toNat 31 25 = f31_25
  arms []

theorem zicfiss_extension_bit_16_parse_opcode_eq (md : Build) (n : Nat) (w : BitVec 16) (isa : Isa) :
    call crate md (n + 2) .zicfiss_extension_bit_16 .parse_opcode [.u16 w, emb isa] =
      outR (Zicfiss16.parse_opcode w isa) := by
  rw [call_zicfiss_extension_bit_16_parse_opcode]
  simp only [zicfiss_extension_bit_16_parse_opcode, Zicfiss16.parse_opcode]
  rl []
  cases isa
  all_goals arms []

theorem c_extension_bit_16_quadrant0_eq (md : Build) (n : Nat) (w : BitVec 16) (opmap : Nat) (isa : Isa) :
    call crate md (n + 2) .c_extension_bit_16 .quadrant0 [.u16 w, .u8 opmap, emb isa] =
      outR (C.quadrant0 w opmap isa) := by
  rw [call_c_extension_bit_16_quadrant0]
  simp only [c_extension_bit_16_quadrant0, C.quadrant0]
  rl []
  cases isa
  all_goals arms []

theorem c_extension_bit_16_quadrant1_eq (md : Build) (n : Nat) (w : BitVec 16) (opmap : Nat) (isa : Isa) :
    call crate md (n + 2) .c_extension_bit_16 .quadrant1 [.u16 w, .u8 opmap, emb isa] =
      outR (C.quadrant1 w opmap isa) := by
  rw [call_c_extension_bit_16_quadrant1]
  simp only [c_extension_bit_16_quadrant1, C.quadrant1]
  fields
  rl []
  generalize fld w.toNat 11 10 = f11_10
  generalize fld w.toNat 6 5 = f6_5
  generalize fld w.toNat 11 7 = f11_7
  generalize fld w.toNat 12 12 = f12_12
  cases isa
  all_goals arms []

theorem c_extension_bit_16_quadrant2_eq (md : Build) (n : Nat) (w : BitVec 16) (opmap : Nat) (isa : Isa) :
    call crate md (n + 2) .c_extension_bit_16 .quadrant2 [.u16 w, .u8 opmap, emb isa] =
      outR (C.quadrant2 w opmap isa) := by
  rw [call_c_extension_bit_16_quadrant2]
  simp only [c_extension_bit_16_quadrant2, C.quadrant2]
  fields
  rl []
  generalize fld w.toNat 6 2 = f6_2
  generalize fld w.toNat 11 7 = f11_7
  generalize fld w.toNat 12 12 = f12_12
  cases isa
  all_goals arms []

theorem leave_outR {α : Type} [Emb α] (x : RustM α) : leave (.result .other) (outR x) = outR x := by
  cases x <;> simp only [outR, leave_val, leave_panic, coerce_ok, coerce_err, coerce_other]

theorem c_extension_bit_16_parse_opcode_eq (md : Build) (n : Nat) (w : BitVec 16) (isa : Isa) :
    call crate md (n + 3) .c_extension_bit_16 .parse_opcode [.u16 w, emb isa] =
      outR (C.parse_opcode w isa) := by
  rw [call_c_extension_bit_16_parse_opcode]
  simp only [c_extension_bit_16_parse_opcode, C.parse_opcode]
  fields
  rl []
  generalize fld w.toNat 15 13 = f15_13
  generalize fld w.toNat 1 0 = f1_0
  have h0 := c_extension_bit_16_quadrant0_eq md n w f15_13 isa
  have h1 := c_extension_bit_16_quadrant1_eq md n w f15_13 isa
  have h2 := c_extension_bit_16_quadrant2_eq md n w f15_13 isa
  apply Eq.symm
  simp only [show (BitVec.ofNat 16 0).toNat = 0 from rfl]
  split
  · rfl
  · split <;> (try simp only [imp_false] at *) <;> (first | (walk [leave_outR]; done) | (walk []; rfl))

theorem u32_parse_extension_eq (md : Build) (n : Nat) (w : BitVec 32) :
    call crate md (n + 2) .u32 .parse_extension [.u32 w] = outR (U32.parse_extension w) := by
  rw [call_u32_parse_extension]
  simp only [u32_parse_extension, U32.parse_extension]
  fields
  rl []
  generalize fld w.toNat 6 0 = f6_0
  generalize fld w.toNat 14 12 = f14_12
  generalize fld w.toNat 31 27 = f31_27
  generalize fld w.toNat 31 25 = f31_25
  obtain ⟨x31_20, hx31_20, hy31_20⟩ := widen16 w.toNat 31 20 (by decide)
  rw [hx31_20, hy31_20]
  clear hx31_20 hy31_20
  arms []
  all_goals
    rename_i h
    simp only [match_range _ _ _ _ (unsigned_u16 _)]
    split
    · first | rfl | omega
    · split
      · first | rfl | omega
      · first | rfl | omega

theorem u16_parse_extension_eq (md : Build) (n : Nat) (w : BitVec 16) :
    call crate md (n + 1) .u16 .parse_extension [.u16 w] = outR (U16.parse_extension w) := by
  rw [call_u16_parse_extension]
  simp only [u16_parse_extension, U16.parse_extension]
  rl []
  arms []

end Raki.Source
