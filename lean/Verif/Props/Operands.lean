import Verif.Lemmas.Decode32
import Verif.Lemmas.Decode16
import Verif.Spec.Asm
/-!
# Operands and metadata of decoded instructions (C11-C17, C27)
-/

namespace Raki

open Spec

set_option linter.unusedSimpArgs false

/-! ## Registers -/

/-- C11.  The register operands are those of the opcode's encoding format. -/
theorem C11_registers32 (w : BitVec 32) (isa : Isa) (i : Instruction) (h : U32.decode w isa = .ok i) :
    ∃ r, row32 i.opc = some r ∧ i.rd = rd32 w.toNat r.fmt ∧ i.rs1 = rs132 w.toNat r.fmt ∧
      i.rs2 = rs232 w.toNat r.fmt := by
  obtain ⟨r, hr, -, hi⟩ := (decode32_ok_iff w isa i).1 h
  exact ⟨r, hr, by rw [hi]; rfl, by rw [hi]; rfl, by rw [hi]; rfl⟩

/-- C11.  Said without the format table: a reported rd is bits 11..7, rs1 bits 19..15, rs2 bits 24..20,
except that CSR instructions report bits 31..20 as rs2, and `sspush`/`sspopchk` report the constant 0 as
rd (`sspush` also as rs1). -/
theorem C11_register_fields32 (w : BitVec 32) (isa : Isa) (i : Instruction)
    (h : U32.decode w isa = .ok i) :
    (∀ x, i.rd = some x →
      if i.opc = .Zicfiss .SSPUSH ∨ i.opc = .Zicfiss .SSPOPCHK then x = 0 else x = fld w.toNat 11 7) ∧
    (∀ x, i.rs1 = some x →
      if i.opc = .Zicfiss .SSPUSH then x = 0 else x = fld w.toNat 19 15) ∧
    (∀ x, i.rs2 = some x →
      (∃ o, i.opc = .Zicsr o) ∧ x = fld w.toNat 31 20 ∨
      (∀ o, i.opc ≠ .Zicsr o) ∧ x = fld w.toNat 24 20) := by
  obtain ⟨r, hr, h1, h2, h3⟩ := C11_registers32 w isa i h
  rw [h1, h2, h3]
  clear h1 h2 h3 h
  revert hr
  rcases i.opc with o | o | o | o | o | o | o | o | o | o
  all_goals cases o
  all_goals intro hr
  all_goals simp [row32] at hr
  all_goals subst hr
  all_goals simp [rd32, rs132, rs232, eq_comm]

example : ∃ i, U32.decode 0x00c58533 .Rv32 = .ok i ∧ i.rd = some 10 ∧ i.rs1 = some 11 ∧
    i.rs2 = some 12 := ⟨_, rfl, rfl, rfl, rfl⟩
example : ∃ i, U32.decode 0x30529073 .Rv32 = .ok i ∧ i.rs2 = some 0x305 := ⟨_, rfl, rfl⟩

/-- C12.  The register operands are those of the opcode's 16-bit encoding format. -/
theorem C12_registers16 (h : BitVec 16) (isa : Isa) (i : Instruction) (hd : U16.decode h isa = .ok i) :
    i.rd = rd16 h.toNat i.opc ∧ i.rs1 = rs116 h.toNat i.opc ∧ i.rs2 = rs216 h.toNat i.opc := by
  obtain ⟨-, hi⟩ := (decode16_ok_iff h isa i).1 hd
  exact ⟨by rw [hi]; rfl, by rw [hi]; rfl, by rw [hi]; rfl⟩

example : ∃ i, U16.decode 0x8d91 .Rv32 = .ok i ∧ i.rd = some 11 ∧ i.rs1 = some 11 ∧
    i.rs2 = some 12 := ⟨_, rfl, rfl, rfl, rfl⟩

/-! ## Immediates -/

theorem imm_of_decode32 (w : BitVec 32) (isa : Isa) (i : Instruction) (h : U32.decode w isa = .ok i) :
    ∃ r, row32 i.opc = some r ∧ i.imm = imm32 isa w.toNat r.fmt := by
  obtain ⟨r, hr, -, hi⟩ := (decode32_ok_iff w isa i).1 h
  exact ⟨r, hr, by rw [hi]; rfl⟩

/-- C13.  Immediates of base instructions, by encoding format: two's complement of the manual's bit
assembly; the raw upper 20 bits for U; shift amounts. -/
theorem C13_base_immediates (w : BitVec 32) (isa : Isa) (i : Instruction) (o : BaseIOpcode) (r : Row)
    (h : U32.decode w isa = .ok i) (ho : i.opc = .BaseI o) (hr : row32 (.BaseI o) = some r) :
    (r.fmt = .I → i.imm = some (sext 12 (fld w.toNat 31 20))) ∧
    (r.fmt = .S → i.imm = some (sext 12 (fld w.toNat 31 25 * 2 ^ 5 + fld w.toNat 11 7))) ∧
    (r.fmt = .B → i.imm = some (sext 13 (fld w.toNat 31 31 * 2 ^ 12 + fld w.toNat 7 7 * 2 ^ 11
      + fld w.toNat 30 25 * 2 ^ 5 + fld w.toNat 11 8 * 2))) ∧
    (r.fmt = .J → i.imm = some (sext 21 (fld w.toNat 31 31 * 2 ^ 20 + fld w.toNat 19 12 * 2 ^ 12
      + fld w.toNat 20 20 * 2 ^ 11 + fld w.toNat 30 21 * 2))) ∧
    (r.fmt = .U → i.imm = some (fld w.toNat 31 12 : Int)) ∧
    (r.fmt = .ShX → isa = .Rv32 → i.imm = some (fld w.toNat 24 20 : Int)) ∧
    (r.fmt = .ShX → isa = .Rv64 → i.imm = some (fld w.toNat 25 20 : Int)) ∧
    (r.fmt = .ShW → i.imm = some (fld w.toNat 24 20 : Int)) ∧
    (r.fmt = .R ∨ r.fmt = .Sys → i.imm = none) := by
  obtain ⟨r', hr', hi⟩ := imm_of_decode32 w isa i h
  rw [ho, hr] at hr'
  injection hr' with hr'
  subst hr'
  rw [hi]
  refine ⟨?_, ?_, ?_, ?_, ?_, ?_, ?_, ?_, ?_⟩
  · intro hf; rw [hf]; rfl
  · intro hf; rw [hf]; rfl
  · intro hf; rw [hf]; rfl
  · intro hf; rw [hf]; rfl
  · intro hf; rw [hf]; rfl
  · rintro hf rfl; rw [hf]; rfl
  · rintro hf rfl; rw [hf]; rfl
  · intro hf; rw [hf]; rfl
  · rintro (hf | hf) <;> rw [hf] <;> rfl

/-- C13.  The formats named above are all the formats base instructions have. -/
theorem C13_base_formats (o : BaseIOpcode) : ∃ r, row32 (.BaseI o) = some r ∧
    r.fmt ∈ [Fmt32.I, .S, .B, .J, .U, .ShX, .ShW, .R, .Sys] := by
  cases o <;> exact ⟨_, rfl, by decide⟩

example : ∃ i, U32.decode 0xfe209ee3 .Rv32 = .ok i ∧ i.opc = .BaseI .BNE ∧ i.imm = some (-4) :=
  ⟨_, rfl, rfl, rfl⟩
example : ∃ i, U32.decode 0x9d3ff0ef .Rv32 = .ok i ∧ i.opc = .BaseI .JAL ∧ i.imm = some (-1582) :=
  ⟨_, rfl, rfl, rfl⟩

/-- C14.  Immediates of the other 32-bit instructions. -/
theorem C14_other_immediates (w : BitVec 32) (isa : Isa) (i : Instruction)
    (h : U32.decode w isa = .ok i) :
    (∀ o, i.opc = .A o → i.imm = some (fld w.toNat 26 25 : Int)) ∧
    (i.opc ∈ [.Zicsr .CSRRWI, .Zicsr .CSRRSI, .Zicsr .CSRRCI] →
      i.imm = some (fld w.toNat 19 15 : Int)) ∧
    (i.opc = .Zifencei .FENCE → i.imm = some (fld w.toNat 31 20 : Int)) ∧
    ((∃ o, i.opc = .M o) ∨ (∃ o, i.opc = .Zicntr o) ∨ (∃ o, i.opc = .Zicboz o) ∨
      (∃ o, i.opc = .Zicfiss o) ∨ (∃ o, i.opc = .Priv o) ∨
      i.opc ∈ [.Zicsr .CSRRW, .Zicsr .CSRRS, .Zicsr .CSRRC] → i.imm = none) := by
  obtain ⟨r, hr, hi⟩ := imm_of_decode32 w isa i h
  rw [hi]
  clear hi h
  revert hr
  rcases i.opc with o | o | o | o | o | o | o | o | o | o
  all_goals cases o
  all_goals intro hr
  all_goals simp [row32] at hr
  all_goals subst hr
  all_goals simp [imm32]

example : ∃ i, U32.decode 0x0605a52f .Rv32 = .ok i ∧ i.opc = .A .AMOADD_W ∧ i.imm = some 3 :=
  ⟨_, rfl, rfl, rfl⟩
example : ∃ i, U32.decode 0x0ff0000f .Rv32 = .ok i ∧ i.opc = .Zifencei .FENCE ∧ i.imm = some 255 :=
  ⟨_, rfl, rfl, rfl⟩

/-- C15.  Immediates of compressed instructions, by opcode (table `imm16`). -/
theorem C15_compressed_immediates (h : BitVec 16) (isa : Isa) (i : Instruction)
    (hd : U16.decode h isa = .ok i) : i.imm = imm16 h.toNat i.opc := by
  obtain ⟨-, hi⟩ := (decode16_ok_iff h isa i).1 hd
  rw [hi]; rfl

example : ∃ i, U16.decode 0x7139 .Rv32 = .ok i ∧ i.opc = .C .ADDI16SP ∧ i.imm = some (-64) :=
  ⟨_, rfl, rfl, rfl⟩

/-! ## Ranges -/

/-- C16, 32-bit registers. -/
theorem C16_register_range32 (w : BitVec 32) (isa : Isa) (i : Instruction)
    (h : U32.decode w isa = .ok i) :
    (∀ x, i.rd = some x → x < 32) ∧ (∀ x, i.rs1 = some x → x < 32) ∧
    (∀ x, i.rs2 = some x → x < 4096 ∧ ((∀ o, i.opc ≠ .Zicsr o) → x < 32)) := by
  obtain ⟨h1, h2, h3⟩ := C11_register_fields32 w isa i h
  have b1 := fld_lt w.toNat 11 7
  have b2 := fld_lt w.toNat 19 15
  have b3 := fld_lt w.toNat 24 20
  have b4 := fld_lt w.toNat 31 20
  refine ⟨fun x hx => ?_, fun x hx => ?_, fun x hx => ?_⟩
  · have := h1 x hx
    split at this <;> omega
  · have := h2 x hx
    split at this <;> omega
  · rcases h3 x hx with ⟨⟨o, ho⟩, e⟩ | ⟨_, e⟩
    · exact ⟨by omega, fun hc => absurd ho (hc o)⟩
    · exact ⟨by omega, fun _ => by omega⟩

theorem immRange32_of (isa : Isa) (w : Nat) (f : Fmt32) (z : Int) (h : imm32 isa w f = some z) :
    immRange32 isa f z := by
  cases f
  case ShX =>
    cases isa
    · simp only [imm32, Option.some.injEq] at h
      have := fld_lt w 24 20
      simp only [immRange32]; omega
    · simp only [imm32, Option.some.injEq] at h
      have := fld_lt w 25 20
      simp only [immRange32]; omega
  all_goals simp only [imm32, Option.some.injEq, reduceCtorEq] at h
  case I =>
    have := fld_lt w 31 20
    simp only [immI, sext] at h
    simp only [immRange32]; split at h <;> omega
  case S =>
    have := fld_lt w 31 25
    have := fld_lt w 11 7
    simp only [immS, sext] at h
    simp only [immRange32]; split at h <;> omega
  case B =>
    have := fld_lt w 31 31
    have := fld_lt w 7 7
    have := fld_lt w 30 25
    have := fld_lt w 11 8
    simp only [immB, sext] at h
    simp only [immRange32]; split at h <;> omega
  case U =>
    have := fld_lt w 31 12
    simp only [immU] at h
    simp only [immRange32]; omega
  case J =>
    have := fld_lt w 31 31
    have := fld_lt w 19 12
    have := fld_lt w 20 20
    have := fld_lt w 30 21
    simp only [immJ, sext] at h
    simp only [immRange32]; split at h <;> omega
  case ShW =>
    have := fld_lt w 24 20
    simp only [immRange32]; omega
  case Amo | Lr =>
    have := fld_lt w 26 25
    simp only [immRange32]; omega
  case Fence =>
    have := fld_lt w 31 20
    simp only [immRange32]; omega
  case CsrI =>
    have := fld_lt w 19 15
    simp only [immRange32]; omega

/-- C16, 32-bit immediates. -/
theorem C16_immediate_range32 (w : BitVec 32) (isa : Isa) (i : Instruction) (z : Int)
    (h : U32.decode w isa = .ok i) (hz : i.imm = some z) :
    ∃ r, row32 i.opc = some r ∧ immRange32 isa r.fmt z := by
  obtain ⟨r, hr, hi⟩ := imm_of_decode32 w isa i h
  exact ⟨r, hr, immRange32_of isa _ _ _ (hi ▸ hz)⟩

/-- C16, 16-bit registers: below 32, and the three-bit ones in 8..15. -/
theorem C16_register_range16 (h : BitVec 16) (isa : Isa) (i : Instruction)
    (hd : U16.decode h isa = .ok i) :
    (∀ x, i.rd = some x → x < 32) ∧ (∀ x, i.rs1 = some x → x < 32) ∧
    (∀ x, i.rs2 = some x → x < 32) ∧
    (i.instFormat ∈ [.ClFormat, .CsFormat, .CaFormat, .CbFormat] →
      (∀ x, i.rd = some x → 8 ≤ x ∧ x ≤ 15) ∧ (∀ x, i.rs1 = some x → 8 ≤ x ∧ x ≤ 15) ∧
      (∀ x, i.rs2 = some x → 8 ≤ x ∧ x ≤ 15)) ∧
    (i.instFormat = .CiwFormat → ∀ x, i.rd = some x → 8 ≤ x ∧ x ≤ 15) := by
  obtain ⟨ha, hi⟩ := (decode16_ok_iff h isa i).1 hd
  have hf : i.instFormat = instFormat16 i.opc := by rw [hi]; rfl
  obtain ⟨h1, h2, h3⟩ := C12_registers16 h isa i hd
  rw [h1, h2, h3, hf]
  have b1 := fld_lt h.toNat 11 7
  have b2 := fld_lt h.toNat 9 7
  have b3 := fld_lt h.toNat 4 2
  have b4 := fld_lt h.toNat 6 2
  clear h1 h2 h3 hf hi ha
  rcases i.opc with o | o | o | o | o | o | o | o | o | o
  all_goals cases o
  all_goals simp [rd16, rs116, rs216, regC, instFormat16]
  all_goals omega

theorem sext_cases (n x : Nat) : (x < 2 ^ (n - 1) ∧ sext n x = x) ∨
    (2 ^ (n - 1) ≤ x ∧ sext n x = (x : Int) - 2 ^ n) := by
  unfold sext
  split
  · exact .inl ⟨‹_›, rfl⟩
  · exact .inr ⟨by omega, rfl⟩

theorem immRange16_of (h : Nat) (op : OpcodeKind) (z : Int) (hz : imm16 h op = some z) :
    immRange16 op z := by
  have b1 := fld_lt h 12 12
  have b2 := fld_lt h 6 2
  rcases op with o | o | o | o | o | o | o | o | o | o
  case C =>
    cases o
    all_goals simp only [imm16, Option.some.injEq, reduceCtorEq] at hz
    case ADDI4SPN =>
      have := fld_lt h 12 11
      have := fld_lt h 10 7
      have := fld_lt h 6 6
      have := fld_lt h 5 5
      simp only [uimmCIW] at hz
      simp only [immRange16]; omega
    case LW | SW =>
      have := fld_lt h 12 10
      have := fld_lt h 6 6
      have := fld_lt h 5 5
      simp only [uimmW] at hz
      simp only [immRange16]; omega
    case LD | SD =>
      have := fld_lt h 12 10
      have := fld_lt h 6 5
      simp only [uimmD] at hz
      simp only [immRange16]; omega
    case NOP | ADDI | ADDIW | LI | ANDI =>
      rcases sext_cases 6 (uimmCI h) with ⟨hx, he⟩ | ⟨hx, he⟩ <;> rw [he] at hz <;>
        simp only [uimmCI] at hx hz <;> simp only [immRange16] <;> omega
    case SRLI | SRAI | SLLI =>
      simp only [uimmCI] at hz
      simp only [immRange16]; omega
    case JAL | J =>
      have := fld_lt h 11 11
      have := fld_lt h 10 9
      have := fld_lt h 8 8
      have := fld_lt h 7 7
      have := fld_lt h 6 6
      have := fld_lt h 5 3
      have := fld_lt h 2 2
      simp only [immCJ, sext] at hz
      simp only [immRange16]; split at hz <;> omega
    case BEQZ | BNEZ =>
      have := fld_lt h 11 10
      have := fld_lt h 6 5
      have := fld_lt h 4 3
      have := fld_lt h 2 2
      simp only [immCB, sext] at hz
      simp only [immRange16]; split at hz <;> omega
    case ADDI16SP =>
      have := fld_lt h 6 6
      have := fld_lt h 5 5
      have := fld_lt h 4 3
      have := fld_lt h 2 2
      simp only [imm16sp, sext] at hz
      simp only [immRange16]; split at hz <;> omega
    case LUI =>
      simp only [immCLui, sext] at hz
      simp only [immRange16]; split at hz <;> omega
    case LWSP =>
      have := fld_lt h 6 4
      have := fld_lt h 3 2
      simp only [uimmLwsp] at hz
      simp only [immRange16]; omega
    case LDSP =>
      have := fld_lt h 6 5
      have := fld_lt h 4 2
      simp only [uimmLdsp] at hz
      simp only [immRange16]; omega
    case SWSP =>
      have := fld_lt h 12 9
      have := fld_lt h 8 7
      simp only [uimmSwsp] at hz
      simp only [immRange16]; omega
    case SDSP =>
      have := fld_lt h 12 10
      have := fld_lt h 9 7
      simp only [uimmSdsp] at hz
      simp only [immRange16]; omega
  all_goals simp [imm16] at hz

/-- C16, 16-bit immediates. -/
theorem C16_immediate_range16 (h : BitVec 16) (isa : Isa) (i : Instruction) (z : Int)
    (hd : U16.decode h isa = .ok i) (hz : i.imm = some z) : immRange16 i.opc z :=
  immRange16_of h.toNat _ _ (C15_compressed_immediates h isa i hd ▸ hz)

example : ∃ i, U16.decode 0xdc6d .Rv64 = .ok i ∧ i.opc = .C .BEQZ ∧ i.imm = some (-6) :=
  ⟨_, rfl, rfl, rfl⟩

/-! ## Presence -/

/-- Which operands an instruction value carries. -/
def presence (i : Instruction) : Bool × Bool × Bool × Bool :=
  (i.rd.isSome, i.rs1.isSome, i.rs2.isSome, i.imm.isSome)

/-- C17.  Two words decoding to the same opcode carry the same operands. -/
theorem C17_presence32 (w w' : BitVec 32) (isa isa' : Isa) (i i' : Instruction)
    (h : U32.decode w isa = .ok i) (h' : U32.decode w' isa' = .ok i') (ho : i.opc = i'.opc) :
    presence i = presence i' := by
  obtain ⟨r, hr, -, hi⟩ := (decode32_ok_iff w isa i).1 h
  obtain ⟨r', hr', -, hi'⟩ := (decode32_ok_iff w' isa' i').1 h'
  rw [← ho, hr] at hr'
  injection hr' with hr'
  subst hr'
  rw [hi, hi', ← ho]
  rcases r with ⟨f, m, f3, c⟩
  cases f
  case ShX => cases isa <;> cases isa' <;> simp [presence, value32, rd32, rs132, rs232, imm32]
  all_goals simp [presence, value32, rd32, rs132, rs232, imm32]

/-- C17.  Two halfwords decoding to the same opcode carry the same operands. -/
theorem C17_presence16 (h h' : BitVec 16) (isa isa' : Isa) (i i' : Instruction)
    (hd : U16.decode h isa = .ok i) (hd' : U16.decode h' isa' = .ok i') (ho : i.opc = i'.opc) :
    presence i = presence i' := by
  obtain ⟨-, hi⟩ := (decode16_ok_iff h isa i).1 hd
  obtain ⟨-, hi'⟩ := (decode16_ok_iff h' isa' i').1 hd'
  rw [hi, hi', ← ho]
  rcases i.opc with o | o | o | o | o | o | o | o | o | o
  all_goals cases o
  all_goals simp [presence, value16, rd16, rs116, rs216, imm16]

example : ∃ i i', U32.decode 0x00500093 .Rv32 = .ok i ∧ U32.decode 0xfff58513 .Rv64 = .ok i' ∧
    i.opc = i'.opc ∧ i.rd = some 1 ∧ i'.rd = some 10 := ⟨_, _, rfl, rfl, rfl, rfl, rfl⟩
example : ∃ i i', U16.decode 0x4501 .Rv32 = .ok i ∧ U16.decode 0x4585 .Rv64 = .ok i' ∧
    i.opc = i'.opc ∧ i.rd = some 10 ∧ i'.rd = some 11 := ⟨_, _, rfl, rfl, rfl, rfl, rfl⟩

/-! ## Metadata -/

/-- C27, 32-bit. -/
theorem C27_metadata32 (w : BitVec 32) (isa : Isa) (i : Instruction) (h : U32.decode w isa = .ok i) :
    i.instFormat = i.opc.getFormat ∧ i.isCompressed = false ∧ (∀ o, i.opc ≠ .C o) ∧
      i.opc ≠ .Zicfiss .C_SSPUSH ∧ i.opc ≠ .Zicfiss .C_SSPOPCHK ∧
      ∃ r, row32 i.opc = some r ∧ i.instFormat = instFormat32 i.opc r.fmt := by
  obtain ⟨r, hr, -, hi⟩ := (decode32_ok_iff w isa i).1 h
  have hf : i.instFormat = instFormat32 i.opc r.fmt := by rw [hi]; rfl
  refine ⟨by rw [hf, getFormat32_eq i.opc r hr], by rw [hi]; rfl, ?_, ?_, ?_, r, hr, hf⟩
  · intro o ho; rw [ho] at hr; cases hr
  · intro ho; rw [ho] at hr; cases hr
  · intro ho; rw [ho] at hr; cases hr

/-- C27, 16-bit. -/
theorem C27_metadata16 (h : BitVec 16) (isa : Isa) (i : Instruction) (hd : U16.decode h isa = .ok i) :
    i.instFormat = i.opc.getFormat ∧ i.isCompressed = true ∧
      ((∃ o, i.opc = .C o) ∨ i.opc = .Zicfiss .C_SSPUSH ∨ i.opc = .Zicfiss .C_SSPOPCHK) ∧
      i.instFormat = instFormat16 i.opc := by
  obtain ⟨ha, hi⟩ := (decode16_ok_iff h isa i).1 hd
  have hc := accepts16_isC _ _ _ ha
  have hf : i.instFormat = instFormat16 i.opc := by rw [hi]; rfl
  refine ⟨by rw [hf, getFormat16_eq i.opc hc], by rw [hi]; rfl, ?_, hf⟩
  clear hf hi ha
  revert hc
  rcases i.opc with o | o | o | o | o | o | o | o | o | o
  case C => exact fun _ => .inl ⟨o, rfl⟩
  case Zicfiss => cases o <;> simp [isC]
  all_goals exact fun hc => hc.elim

end Raki
