import Verif.Lemmas.Decode32
import Verif.Lemmas.Decode16
/-!
# RV32 versus RV64, and errors (C18-C24)
-/

namespace Raki

open Spec

set_option linter.unusedSimpArgs false

/-! ## The RV64-only error -/

/-- C18, 32-bit.  `OnlyRv64Inst` is returned exactly under RV32 for words that RV64 decodes to one of
the RV64-only instructions. -/
theorem C18_only_rv64_32 (w : BitVec 32) (isa : Isa) :
    U32.decode w isa = .err .OnlyRv64Inst ↔
      isa = .Rv32 ∧ ∃ i, U32.decode w .Rv64 = .ok i ∧ gated64 i.opc = true := by
  rw [decode32_err_iff]
  constructor
  · rintro ⟨hi, op, hg, ha⟩
    obtain ⟨i, hd, ho⟩ := (decode32_accepts w .Rv64 op).2 ha
    exact ⟨hi, i, hd, ho ▸ hg⟩
  · rintro ⟨hi, i, hd, hg⟩
    exact ⟨hi, i.opc, hg, (decode32_accepts w .Rv64 _).1 ⟨i, hd, rfl⟩⟩

/-- C18, 16-bit. -/
theorem C18_only_rv64_16 (h : BitVec 16) (isa : Isa) :
    U16.decode h isa = .err .OnlyRv64Inst ↔
      isa = .Rv32 ∧ ∃ i, U16.decode h .Rv64 = .ok i ∧ gated64c i.opc = true := by
  rw [decode16_err_iff]
  constructor
  · rintro ⟨hi, hr⟩
    refine ⟨hi, ?_⟩
    have key : ∀ op, gated64c op = true → accepts16 .Rv64 h.toNat op →
        ∃ i, U16.decode h .Rv64 = .ok i ∧ gated64c i.opc = true := fun op hg ha => by
      obtain ⟨i, hd, ho⟩ := (decode16_accepts h .Rv64 op).2 ha
      exact ⟨i, hd, ho ▸ hg⟩
    rcases hr with hr | hr | hr | hr | ⟨hq, hs, hb, hl⟩
    · exact key (.C .LD) rfl ⟨hr, rfl⟩
    · exact key (.C .SD) rfl ⟨hr, rfl⟩
    · exact key (.C .LDSP) rfl ⟨hr, rfl⟩
    · exact key (.C .SDSP) rfl ⟨hr, rfl⟩
    · have : fld h.toNat 6 5 = 0 ∨ fld h.toNat 6 5 = 1 := by omega
      rcases this with h0 | h1
      · exact key (.C .SUBW) rfl ⟨hq, hs, hb, h0, rfl⟩
      · exact key (.C .ADDW) rfl ⟨hq, hs, hb, h1, rfl⟩
  · rintro ⟨hi, i, hd, hg⟩
    have ha := (decode16_accepts h .Rv64 _).1 ⟨i, hd, rfl⟩
    refine ⟨hi, ?_⟩
    revert hg ha
    rcases i.opc with o | o | o | o | o | o | o | o | o | o
    case C =>
      cases o
      all_goals intro hg ha
      all_goals simp [gated64c] at hg
      all_goals simp [accepts16, official16] at ha
      all_goals simp [ha]
    all_goals intro hg; simp [gated64c] at hg

example : U32.decode 0x00003003 .Rv32 = .err .OnlyRv64Inst := rfl
example : U16.decode 0x6000 .Rv32 = .err .OnlyRv64Inst := rfl

/-! ## Comparing the two ISAs -/

theorem rv32_accepts_rv64 (w : Nat) (op : OpcodeKind) (h : accepts32 .Rv32 w op) :
    accepts32 .Rv64 w op := by
  obtain ⟨hg, hf⟩ := h
  refine ⟨fun _ => rfl, ?_⟩
  rcases op with o | o | o | o | o | o | o | o | o | o
  case BaseI =>
    cases o
    case SLLI | SRLI | SRAI =>
      obtain ⟨h1, h2, h3⟩ := hf
      refine ⟨h1, h2, ?_⟩
      simp only [fld] at h3 ⊢
      omega
    all_goals exact hf
  all_goals cases o
  all_goals exact hf

/-- C19.  A word that decodes under RV32 decodes to the same instruction under RV64. -/
theorem C19_rv32_then_rv64 (w : BitVec 32) (i : Instruction) (h : U32.decode w .Rv32 = .ok i) :
    U32.decode w .Rv64 = .ok i := by
  obtain ⟨r, hr, ha, hi⟩ := (decode32_ok_iff w .Rv32 i).1 h
  refine (decode32_ok_iff w .Rv64 i).2 ⟨r, hr, rv32_accepts_rv64 _ _ ha, ?_⟩
  have : imm32 .Rv64 w.toNat r.fmt = imm32 .Rv32 w.toNat r.fmt := by
    have hf := ha.2
    revert hr hf
    rcases i.opc with o | o | o | o | o | o | o | o | o | o
    case BaseI =>
      cases o
      case SLLI | SRLI | SRAI =>
        intro hr hf
        simp [row32] at hr
        subst hr
        simp [row32, fixed32] at hf
        simp only [imm32]
        have h25 : fld w.toNat 25 20 = fld w.toNat 24 20 := by
          have := hf.2.2
          simp only [fld] at this ⊢
          omega
        rw [h25]
      all_goals intro hr hf
      all_goals simp [row32] at hr
      all_goals subst hr
      all_goals rfl
    all_goals cases o
    all_goals intro hr hf
    all_goals simp [row32] at hr
    all_goals subst hr
    all_goals rfl
  rw [hi]
  simp only [value32, this]

/-- C19.  A word that fails under RV64 fails under RV32. -/
theorem C19_rv64_err (w : BitVec 32) (e : DecodingError) (h : U32.decode w .Rv64 = .err e) :
    ∃ e', U32.decode w .Rv32 = .err e' := by
  cases h' : U32.decode w .Rv32 with
  | ok i => rw [C19_rv32_then_rv64 w i h'] at h; cases h
  | err e' => exact ⟨e', rfl⟩
  | panic => exact absurd h' (decode32_no_panic w .Rv32)

example : ∃ i, U32.decode 0x00529293 .Rv32 = .ok i := ⟨_, rfl⟩
example : U32.decode 0x0000007f .Rv64 = .err .InvalidOpcode := rfl

/-- C20.  A halfword that decodes under RV32 decodes to the same instruction under RV64, unless it is
`c.jal`. -/
theorem C20_rv32_then_rv64 (h : BitVec 16) (i : Instruction) (hd : U16.decode h .Rv32 = .ok i)
    (hne : i.opc ≠ .C .JAL) : U16.decode h .Rv64 = .ok i := by
  obtain ⟨ha, hi⟩ := (decode16_ok_iff h .Rv32 i).1 hd
  refine (decode16_ok_iff h .Rv64 i).2 ⟨?_, hi⟩
  clear hi
  revert ha hne
  rcases i.opc with o | o | o | o | o | o | o | o | o | o
  case C =>
    cases o
    all_goals intro hne ha
    all_goals simp [accepts16, official16] at ha hne ⊢
    all_goals exact ha
  case Zicfiss => cases o <;> exact fun _ ha => ha
  all_goals exact fun _ ha => ha

/-- C20.  A halfword is `c.jal` under RV32 exactly when it is `c.addiw` under RV64. -/
theorem C20_jal_addiw (h : BitVec 16) :
    (∃ i, U16.decode h .Rv32 = .ok i ∧ i.opc = .C .JAL) ↔
      (∃ i, U16.decode h .Rv64 = .ok i ∧ i.opc = .C .ADDIW) := by
  rw [decode16_accepts, decode16_accepts]
  simp [accepts16, official16]

/-- C20.  A halfword that decodes under RV64 to something other than `c.addiw` and the RV64-only
instructions decodes to the same under RV32. -/
theorem C20_rv64_then_rv32 (h : BitVec 16) (i : Instruction) (hd : U16.decode h .Rv64 = .ok i)
    (hne : i.opc ≠ .C .ADDIW) (hg : gated64c i.opc = false) : U16.decode h .Rv32 = .ok i := by
  obtain ⟨ha, hi⟩ := (decode16_ok_iff h .Rv64 i).1 hd
  refine (decode16_ok_iff h .Rv32 i).2 ⟨?_, hi⟩
  clear hi
  revert ha hne hg
  rcases i.opc with o | o | o | o | o | o | o | o | o | o
  case C =>
    cases o
    all_goals intro hne hg ha
    all_goals simp [accepts16, official16, gated64c] at ha hne hg ⊢
    all_goals exact ha
  case Zicfiss => cases o <;> exact fun _ _ ha => ha
  all_goals exact fun _ _ ha => ha

example : ∃ i, U16.decode 0x4501 .Rv32 = .ok i ∧ i.opc ≠ .C .JAL := ⟨_, rfl, by decide⟩
example : ∃ i, U16.decode 0x2001 .Rv32 = .ok i ∧ i.opc = .C .JAL := ⟨_, rfl, rfl⟩
example : ∃ i, U16.decode 0x4501 .Rv64 = .ok i ∧ i.opc ≠ .C .ADDIW ∧ gated64c i.opc = false :=
  ⟨_, rfl, by decide, rfl⟩

/-! ## Length discrimination -/

/-- C21.  A `u32` whose low two bits are not 11 is `InvalidOpcode`. -/
theorem C21_low_bits_32 (w : BitVec 32) (isa : Isa) (h : w.toNat % 4 ≠ 3) :
    U32.decode w isa = .err .InvalidOpcode := by
  refine (decode32_err_iff w isa _).2 (.inl ?_)
  simp only [List.mem_cons, List.not_mem_nil, or_false, fld]
  omega

/-- C21.  A `u16` whose low two bits are 11 is `InvalidOpcode`. -/
theorem C21_low_bits_16 (h : BitVec 16) (isa : Isa) (h3 : h.toNat % 4 = 3) :
    U16.decode h isa = .err .InvalidOpcode := by
  refine (decode16_err_iff h isa _).2 (.inl ?_)
  simp only [fld]; omega

/-- C21.  No word decodes both as a `u32` and, on its low half, as a `u16`. -/
theorem C21_never_both (w : BitVec 32) (isa isa' : Isa) (i i' : Instruction)
    (h : U32.decode w isa = .ok i) : U16.decode (w.setWidth 16) isa' ≠ .ok i' := by
  intro h'
  have h3 : w.toNat % 4 = 3 := by
    refine Classical.byContradiction fun hn => ?_
    rw [C21_low_bits_32 w isa hn] at h; cases h
  rw [C21_low_bits_16 (w.setWidth 16) isa' (by rw [BitVec.toNat_setWidth]; omega)] at h'
  cases h'

example : (0x00500090 : BitVec 32).toNat % 4 ≠ 3 ∧ (0x4503 : BitVec 16).toNat % 4 = 3 := by decide
example : ∃ i, U32.decode 0x00500093 .Rv32 = .ok i := ⟨_, rfl⟩

/-! ## Which errors occur -/

/-- C22.  The width-mismatch errors are never returned by either decoder. -/
theorem C22_no_width_error (w : BitVec 32) (h : BitVec 16) (isa : Isa) :
    U32.decode w isa ≠ .err .Not16BitInst ∧ U32.decode w isa ≠ .err .Not32BitInst ∧
    U16.decode h isa ≠ .err .Not16BitInst ∧ U16.decode h isa ≠ .err .Not32BitInst := by
  refine ⟨?_, ?_, ?_, ?_⟩ <;>
    (first | rw [Ne, decode32_err_iff] | rw [Ne, decode16_err_iff]) <;> exact fun h => h

/-- C22.  `IllegalInstruction` is never returned for a `u32`. -/
theorem C22_illegal_32 (w : BitVec 32) (isa : Isa) : U32.decode w isa ≠ .err .IllegalInstruction := by
  rw [Ne, decode32_err_iff]; exact fun h => h

/-- C22.  `IllegalInstruction` is returned for a `u16` exactly when it is zero. -/
theorem C22_illegal_16 (h : BitVec 16) (isa : Isa) :
    U16.decode h isa = .err .IllegalInstruction ↔ h = 0 := by
  rw [decode16_err_iff]
  exact ⟨fun h0 => BitVec.eq_of_toNat_eq h0, fun h0 => by subst h0; rfl⟩

/-- C23.  The exact set of words on which the 32-bit decoder returns each error. -/
theorem C23_errors32_exact (w : BitVec 32) (isa : Isa) (e : DecodingError) :
    U32.decode w isa = .err e ↔ rejects32 isa w.toNat e := decode32_err_iff w isa e

/-- C24.  The exact set of halfwords on which the 16-bit decoder returns each error. -/
theorem C24_errors16_exact (h : BitVec 16) (isa : Isa) (e : DecodingError) :
    U16.decode h isa = .err e ↔ rejects16 isa h.toNat e := decode16_err_iff h isa e

/-- C24.  Under RV64 the only errors of the 16-bit decoder are `IllegalInstruction` and
`InvalidOpcode`; under RV32 also `OnlyRv64Inst`. -/
theorem C24_errors16 (h : BitVec 16) (isa : Isa) (e : DecodingError) (he : U16.decode h isa = .err e) :
    e = .IllegalInstruction ∨ e = .InvalidOpcode ∨ (e = .OnlyRv64Inst ∧ isa = .Rv32) := by
  rw [decode16_err_iff] at he
  cases e
  case IllegalInstruction => exact .inl rfl
  case InvalidOpcode => exact .inr (.inl rfl)
  case OnlyRv64Inst => exact .inr (.inr ⟨rfl, he.1⟩)
  all_goals exact he.elim

-- every error of the specification occurs
example : U32.decode 0x00000000 .Rv32 = .err .InvalidOpcode := rfl
example : U32.decode 0x00007003 .Rv32 = .err .InvalidFunct3 := rfl
example : U32.decode 0x00200073 .Rv32 = .err .InvalidFunct5 := rfl
example : U32.decode 0x80001013 .Rv64 = .err .InvalidFunct6 := rfl
example : U32.decode 0x80001013 .Rv32 = .err .InvalidFunct7 := rfl
example : U32.decode 0x0000100f .Rv32 = .err .UnknownExtension := rfl
example : U32.decode 0x0000302f .Rv32 = .err .OnlyRv64Inst := rfl
example : U16.decode 0x2000 .Rv32 = .err .InvalidOpcode := rfl
example : U16.decode 0x9c01 .Rv32 = .err .OnlyRv64Inst := rfl

end Raki
