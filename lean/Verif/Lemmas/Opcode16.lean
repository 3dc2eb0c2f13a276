import Verif.Lemmas.Scatter
import Verif.Model.Inst16
import Verif.Spec.Isa16
/-!
# Which opcode (or error) the 16-bit decoder reports, in terms of bit fields
-/

namespace Raki

open Spec

set_option linter.unusedSimpArgs false

/-- Replace every `slice` and checked conversion by the field it computes. -/
macro "fields16" : tactic =>
  `(tactic| simp only [U16.slice_eq, Nat.reduceLeDiff, Nat.reduceSub, Nat.reduceAdd, Nat.reduceLT,
      toNat_ofNat_fld16, tryU8_fld, tryU16_fld, RustM.bind_ok])

/-- What an outcome of decoding a nonzero halfword's opcode must satisfy. -/
def Out16 (isa : Isa) (h : Nat) : RustM OpcodeKind → Prop
  | .ok op => accepts16 isa h op
  | .err e => rejects16 isa h e
  | .panic => False

theorem out16_only (isa : Isa) (h : Nat) (o : COpcode)
    (h32 : rejects16 .Rv32 h .OnlyRv64Inst) (h64 : accepts16 .Rv64 h (.C o)) :
    Out16 isa h (only_rv64 o isa >>= fun a => RustM.ok (.C a)) := by
  cases isa
  · exact h32
  · exact h64

theorem out16_C (w : BitVec 16) (isa : Isa) (h0 : w.toNat ≠ 0) (h1 : w.toNat ≠ 0x6081)
    (h2 : w.toNat ≠ 0x6281) :
    Out16 isa w.toNat (C.parse_opcode w isa >>= fun o => RustM.ok (.C o)) := by
  have hq := fld_lt w.toNat 1 0
  have hf := fld_lt w.toNat 15 13
  have hs := fld_lt w.toNat 11 10
  have hb := fld_lt w.toNat 12 12
  have hl := fld_lt w.toNat 6 5
  simp only [Nat.reduceAdd, Nat.reduceSub, Nat.reducePow] at hq hf hs hb hl
  unfold C.parse_opcode C.quadrant0 C.quadrant1 C.quadrant2
  fields16
  rw [if_neg h0]
  repeat' split
  all_goals try simp only [RustM.bind_ok, RustM.bind_err]
  all_goals try with_reducible apply out16_only
  all_goals simp_all [Out16, accepts16, official16, rejects16, quad]
  all_goals omega

theorem ext16_C (w : BitVec 16) (h1 : w.toNat ≠ 0x6081) (h2 : w.toNat ≠ 0x6281) :
    U16.parse_extension w = .ok .C := by
  unfold U16.parse_extension
  split
  · exact absurd ‹_› h1
  · exact absurd ‹_› h2
  · rfl

/-- Every outcome of `parse_opcode` on a nonzero `u16` is as specified. -/
theorem out16 (w : BitVec 16) (isa : Isa) (h0 : w.toNat ≠ 0) :
    Out16 isa w.toNat (U16.parse_opcode w isa) := by
  unfold U16.parse_opcode
  by_cases h1 : w.toNat = 0x6081
  · simp [h1, U16.parse_extension, Zicfiss16.parse_opcode, Out16, accepts16, official16]
  by_cases h2 : w.toNat = 0x6281
  · simp [h2, U16.parse_extension, Zicfiss16.parse_opcode, Out16, accepts16, official16]
  rw [ext16_C w h1 h2]
  exact out16_C w isa h0 h1 h2

theorem acc16 (w : BitVec 16) (isa : Isa) (op : OpcodeKind) (h : accepts16 isa w.toNat op) :
    U16.parse_opcode w isa = .ok op := by
  unfold U16.parse_opcode
  rcases op with o | o | o | o | o | o | o | o | o | o
  case C =>
    have hne : w.toNat ≠ 0x6081 ∧ w.toNat ≠ 0x6281 ∧ w.toNat ≠ 0 := by
      refine ⟨?_, ?_, ?_⟩ <;> intro hw <;> rw [hw] at h <;> revert h <;> cases o <;>
        simp [accepts16, official16, quad, fld]
    rw [ext16_C w hne.1 hne.2.1]
    unfold C.parse_opcode C.quadrant0 C.quadrant1 C.quadrant2
    fields16
    rw [if_neg hne.2.2]
    cases o
    all_goals simp [accepts16, official16, quad] at h
    all_goals simp [h, only_rv64]
  case Zicfiss =>
    cases o <;> simp [accepts16, official16] at h <;> simp [h, U16.parse_extension, Zicfiss16.parse_opcode]
  all_goals simp [accepts16, official16] at h

theorem parse_opcode16_ok (w : BitVec 16) (isa : Isa) (op : OpcodeKind) (h0 : w.toNat ≠ 0) :
    U16.parse_opcode w isa = .ok op ↔ accepts16 isa w.toNat op := by
  refine ⟨fun h => ?_, acc16 w isa op⟩
  have := out16 w isa h0
  rw [h] at this
  exact this

theorem accepts16_rejects16 (isa : Isa) (h : Nat) (op : OpcodeKind) (e : DecodingError)
    (ha : accepts16 isa h op) (hr : rejects16 isa h e) : False := by
  rcases op with o | o | o | o | o | o | o | o | o | o
  case C => cases o <;> cases e <;> simp_all [accepts16, official16, rejects16, quad, fld] <;> omega
  case Zicfiss =>
    cases o <;> cases e <;> simp_all [accepts16, official16, rejects16, quad, fld]
  all_goals simp [accepts16, official16] at ha

end Raki
