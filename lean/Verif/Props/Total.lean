import Verif.Model.Lib
import Verif.Lemmas.Decode32
import Verif.Lemmas.Decode16
/-!
# Totality: panics of `decode`, `parse_*` and `TryFrom<usize>` (C01-C04, C25, C26, C43)
-/

namespace Raki

open Spec

/-- C01.  Decoding a `u32` returns `Ok` or `Err`, never panics. -/
theorem C01_decode32_total (w : BitVec 32) (isa : Isa) :
    (∃ i, U32.decode w isa = .ok i) ∨ (∃ e, U32.decode w isa = .err e) := by
  cases h : U32.decode w isa with
  | ok i => exact .inl ⟨i, rfl⟩
  | err e => exact .inr ⟨e, rfl⟩
  | panic => exact absurd h (decode32_no_panic w isa)

-- both outcomes occur
example : ∃ i, U32.decode 0x00500093 .Rv32 = .ok i := ⟨_, rfl⟩
example : U32.decode 0xffffffff .Rv64 = .err .InvalidOpcode := rfl

/-- C02.  Decoding a `u16` returns `Ok` or `Err`, never panics. -/
theorem C02_decode16_total (h : BitVec 16) (isa : Isa) :
    (∃ i, U16.decode h isa = .ok i) ∨ (∃ e, U16.decode h isa = .err e) := by
  cases hd : U16.decode h isa with
  | ok i => exact .inl ⟨i, rfl⟩
  | err e => exact .inr ⟨e, rfl⟩
  | panic => exact absurd hd (decode16_no_panic h isa)

example : ∃ i, U16.decode 0x4501 .Rv32 = .ok i := ⟨_, rfl⟩
example : U16.decode 0 .Rv64 = .err .IllegalInstruction := rfl

theorem and3 (n : Nat) : n &&& 0b11 = n % 4 := Nat.and_two_pow_sub_one_eq_mod n 2

/-- C03, low bits 11.  The conversion is the 32-bit decoder for RV64 on values that fit. -/
theorem C03_try_from_32 (n : Nat) (h3 : n % 4 = 3) (hn : n < 2 ^ 32) :
    try_from n = U32.decode (BitVec.ofNat 32 n) .Rv64 := by
  unfold try_from tryU32
  rw [and3, if_pos h3, if_pos hn]
  rfl

/-- C03, other low bits.  The conversion is the 16-bit decoder for RV64 on values that fit. -/
theorem C03_try_from_16 (n : Nat) (h3 : n % 4 ≠ 3) (hn : n < 2 ^ 16) :
    try_from n = U16.decode (BitVec.ofNat 16 n) .Rv64 := by
  unfold try_from tryU16
  rw [and3, if_neg h3, if_pos hn]
  rfl

example : (0x00500093 % 4 = 3 ∧ 0x00500093 < 2 ^ 32) ∧ (0x4501 % 4 ≠ 3 ∧ 0x4501 < 2 ^ 16) := by decide

/-- C04 is false of the code: some values make the conversion panic. -/
theorem C04_refuted : ¬ ∀ n, try_from n ≠ .panic := fun h => h 0x10000 rfl

/-- C43 (and the true part of C04): the conversion panics exactly on values too wide for the length
selected by the low two bits. -/
theorem C43_try_from_panics (n : Nat) :
    try_from n = .panic ↔ (n % 4 = 3 ∧ 2 ^ 32 ≤ n) ∨ (n % 4 ≠ 3 ∧ 2 ^ 16 ≤ n) := by
  by_cases h3 : n % 4 = 3
  · by_cases hn : n < 2 ^ 32
    · rw [C03_try_from_32 n h3 hn]
      simp only [decode32_no_panic, false_iff]; omega
    · unfold try_from tryU32
      rw [and3, if_pos h3, if_neg hn]
      simp only [RustM.bind_panic, true_iff]; omega
  · by_cases hn : n < 2 ^ 16
    · rw [C03_try_from_16 n h3 hn]
      simp only [decode16_no_panic, false_iff]; omega
    · unfold try_from tryU16
      rw [and3, if_neg h3, if_neg hn]
      simp only [RustM.bind_panic, true_iff]; omega

/-- C04, the part that holds.  Missing: values too wide for their length panic instead of returning
`Err`. -/
theorem C04_try_from_no_panic_partial (n : Nat)
    (h : (n % 4 = 3 → n < 2 ^ 32) ∧ (n % 4 ≠ 3 → n < 2 ^ 16)) : try_from n ≠ .panic := by
  rw [Ne, C43_try_from_panics]; omega

example : try_from 0x100000003 = .panic := rfl
example : ∃ i, try_from 0x00500093 = .ok i := ⟨_, rfl⟩

/-- C25, 32-bit.  When `parse_opcode` succeeds, all operand parsers succeed on its opcode and `decode`
returns exactly their results, the opcode's format and a false compression flag. -/
theorem C25_decode32_parse_ok (w : BitVec 32) (isa : Isa) (op : OpcodeKind)
    (h : U32.parse_opcode w isa = .ok op) :
    ∃ rd rs1 rs2 imm, U32.parse_rd w op = .ok rd ∧ U32.parse_rs1 w op = .ok rs1 ∧
      U32.parse_rs2 w op = .ok rs2 ∧ U32.parse_imm w op isa = .ok imm ∧
      U32.decode w isa = .ok ⟨op, rd, rs1, rs2, imm, op.getFormat, false⟩ := by
  obtain ⟨r, hr⟩ := accepts32_row _ _ _ ((parse_opcode32_ok w isa op).1 h)
  refine ⟨_, _, _, _, parse_rd32_eq w op r hr, parse_rs132_eq w op r hr, parse_rs232_eq w op r hr,
    parse_imm32_eq w isa op r hr, ?_⟩
  rw [decode32_of_opcode w isa op r h hr, getFormat32_eq op r hr]
  rfl

/-- C25, 32-bit.  When `parse_opcode` fails, `decode` fails with the same error. -/
theorem C25_decode32_parse_err (w : BitVec 32) (isa : Isa) (e : DecodingError) :
    U32.parse_opcode w isa = .err e ↔ U32.decode w isa = .err e := by
  rw [decode32_err_iff, parse_opcode32_err]

/-- C25, 16-bit.  As for 32 bits, with a true compression flag; the zero halfword never succeeds. -/
theorem C25_decode16_parse_ok (w : BitVec 16) (isa : Isa) (op : OpcodeKind)
    (h : U16.parse_opcode w isa = .ok op) :
    ∃ rd rs1 rs2 imm, U16.parse_rd w op = .ok rd ∧ U16.parse_rs1 w op = .ok rs1 ∧
      U16.parse_rs2 w op = .ok rs2 ∧ U16.parse_imm w op isa = .ok imm ∧
      U16.decode w isa = .ok ⟨op, rd, rs1, rs2, imm, op.getFormat, true⟩ := by
  have h0 : w.toNat ≠ 0 := by
    intro h0
    have : w = 0 := BitVec.eq_of_toNat_eq h0
    subst this
    cases isa <;> cases h
  have hc := accepts16_isC _ _ _ ((parse_opcode16_ok w isa op h0).1 h)
  refine ⟨_, _, _, _, parse_rd16_eq w op hc, parse_rs116_eq w op hc, parse_rs216_eq w op hc,
    parse_imm16_eq w isa op hc, ?_⟩
  rw [decode16_of_opcode w isa op h0 h hc, getFormat16_eq op hc]
  rfl

/-- C25, 16-bit.  `decode` and `parse_opcode` fail alike, except that the zero halfword is
`IllegalInstruction` to the former and `InvalidOpcode` to the latter. -/
theorem C25_decode16_parse_err (w : BitVec 16) (isa : Isa) (h0 : w ≠ 0) (e : DecodingError) :
    U16.parse_opcode w isa = .err e ↔ U16.decode w isa = .err e := by
  have h0' : w.toNat ≠ 0 := fun h => h0 (BitVec.eq_of_toNat_eq h)
  cases h : U16.parse_opcode w isa with
  | ok op =>
    obtain ⟨_, _, _, _, _, _, _, _, hd⟩ := C25_decode16_parse_ok w isa op h
    rw [hd]; simp
  | err e' => simp [U16.decode, h, h0']
  | panic => simp [U16.decode, h, h0']

theorem C25_decode16_zero (isa : Isa) : U16.parse_opcode 0 isa = .err .InvalidOpcode ∧
    U16.decode 0 isa = .err .IllegalInstruction := by cases isa <;> exact ⟨rfl, rfl⟩

example : U32.parse_opcode 0x00500093 .Rv64 = .ok (.BaseI .ADDI) := rfl
example : U32.parse_opcode 0x00003003 .Rv32 = .err .OnlyRv64Inst := rfl
example : U16.parse_opcode 0x4501 .Rv64 = .ok (.C .LI) := rfl
example : U16.parse_opcode 0x8002 .Rv64 = .ok (.C .JR) := rfl
example : U16.parse_opcode 0x6000 .Rv32 = .err .OnlyRv64Inst := rfl

/-- The shadow-stack opcodes with a 16-bit encoding. -/
def zicfissC (op : OpcodeKind) : Prop := op = .Zicfiss .C_SSPUSH ∨ op = .Zicfiss .C_SSPOPCHK

theorem row32_cases (op : OpcodeKind) :
    (∃ r, row32 op = some r) ∨ (∃ o, op = .C o) ∨ zicfissC op := by
  rcases op with o | o | o | o | o | o | o | o | o | o
  case C => exact .inr (.inl ⟨o, rfl⟩)
  all_goals cases o
  all_goals first
    | exact .inl ⟨_, rfl⟩
    | exact .inr (.inr (.inl rfl))
    | exact .inr (.inr (.inr rfl))

/-- C26, 32-bit.  The operand parsers applied to any word and any opcode: `Err(Not32BitInst)` exactly
for C opcodes, a panic exactly for the 16-bit shadow-stack opcodes, `Ok` otherwise. -/
theorem C26_parse32 (w : BitVec 32) (op : OpcodeKind) (isa : Isa) :
    (∀ o, op = .C o → U32.parse_rd w op = .err .Not32BitInst ∧
      U32.parse_rs1 w op = .err .Not32BitInst ∧ U32.parse_rs2 w op = .err .Not32BitInst ∧
      U32.parse_imm w op isa = .err .Not32BitInst) ∧
    (zicfissC op → U32.parse_rd w op = .panic ∧ U32.parse_rs1 w op = .panic ∧
      U32.parse_rs2 w op = .panic ∧ U32.parse_imm w op isa = .panic) ∧
    ((∀ o, op ≠ .C o) → ¬ zicfissC op → ∃ rd rs1 rs2 imm, U32.parse_rd w op = .ok rd ∧
      U32.parse_rs1 w op = .ok rs1 ∧ U32.parse_rs2 w op = .ok rs2 ∧
      U32.parse_imm w op isa = .ok imm) := by
  refine ⟨?_, ?_, ?_⟩
  · rintro o rfl
    exact ⟨rfl, rfl, rfl, rfl⟩
  · have hrd := U32.slice_eq w 11 7 (by decide) (by decide) (by decide)
    have hr1 := U32.slice_eq w 19 15 (by decide) (by decide) (by decide)
    have hr2 := U32.slice_eq w 24 20 (by decide) (by decide) (by decide)
    rintro (rfl | rfl) <;>
      simp [U32.parse_rd, U32.parse_rs1, U32.parse_rs2, U32.parse_imm, Zicfiss.parse_rd,
        Zicfiss.parse_rs1, Zicfiss.parse_rs2, Zicfiss.parse_imm, hrd, hr1, hr2]
  · intro h1 h2
    rcases row32_cases op with ⟨r, hr⟩ | ⟨o, ho⟩ | h
    · exact ⟨_, _, _, _, parse_rd32_eq w op r hr, parse_rs132_eq w op r hr,
        parse_rs232_eq w op r hr, parse_imm32_eq w isa op r hr⟩
    · exact absurd ho (h1 o)
    · exact absurd h h2

/-- C26, 16-bit.  The operand parsers applied to any halfword and any opcode: `Ok` for C opcodes and
the 16-bit shadow-stack opcodes; for 32-bit shadow-stack opcodes `parse_rd` panics and the others return
no operand; `Err(Not16BitInst)` for every other opcode. -/
theorem C26_parse16 (w : BitVec 16) (op : OpcodeKind) (isa : Isa) :
    ((∃ o, op = .C o) ∨ zicfissC op → ∃ rd rs1 rs2 imm, U16.parse_rd w op = .ok rd ∧
      U16.parse_rs1 w op = .ok rs1 ∧ U16.parse_rs2 w op = .ok rs2 ∧
      U16.parse_imm w op isa = .ok imm) ∧
    (∀ o, op = .Zicfiss o → ¬ zicfissC op → U16.parse_rd w op = .panic ∧
      U16.parse_rs1 w op = .ok none ∧ U16.parse_rs2 w op = .ok none ∧
      U16.parse_imm w op isa = .ok none) ∧
    ((∀ o, op ≠ .C o) → (∀ o, op ≠ .Zicfiss o) → U16.parse_rd w op = .err .Not16BitInst ∧
      U16.parse_rs1 w op = .err .Not16BitInst ∧ U16.parse_rs2 w op = .err .Not16BitInst ∧
      U16.parse_imm w op isa = .err .Not16BitInst) := by
  refine ⟨?_, ?_, ?_⟩
  · intro h
    have hc : isC op := by
      rcases h with ⟨o, rfl⟩ | rfl | rfl <;> trivial
    exact ⟨_, _, _, _, parse_rd16_eq w op hc, parse_rs116_eq w op hc, parse_rs216_eq w op hc,
      parse_imm16_eq w isa op hc⟩
  · rintro o rfl h
    cases o
    case C_SSPUSH => exact absurd (.inl rfl) h
    case C_SSPOPCHK => exact absurd (.inr rfl) h
    all_goals exact ⟨rfl, rfl, rfl, rfl⟩
  · intro h1 h2
    cases op
    case C o => exact absurd rfl (h1 o)
    case Zicfiss o => exact absurd rfl (h2 o)
    all_goals exact ⟨rfl, rfl, rfl, rfl⟩

-- each case is inhabited
example : U32.parse_rd 0 (.C .NOP) = .err .Not32BitInst := rfl
example : U32.parse_rd 0 (.Zicfiss .C_SSPUSH) = .panic := rfl
example : U32.parse_rd 0x00500093 (.BaseI .ADDI) = .ok (some 1) := rfl
example : U16.parse_rd 0x4501 (.C .LI) = .ok (some 10) := rfl
example : U16.parse_rd 0 (.Zicfiss .SSRDP) = .panic := rfl
example : U16.parse_rd 0 (.M .MUL) = .err .Not16BitInst := rfl

end Raki
