import Verif.Lemmas.Asm32
import Verif.Props.Operands
/-!
# Round trips between 32-bit words and instruction values (C28, C29, C44)
-/

namespace Raki

open Spec

set_option linter.unusedSimpArgs false

theorem toNat_ofNat32 (n : Nat) (h : n < 2 ^ 32) : (BitVec.ofNat 32 n).toNat = n := by
  rw [BitVec.toNat_ofNat, Nat.mod_eq_of_lt h]

theorem official_row (isa : Isa) (w : Nat) (op : OpcodeKind) (h : official32 isa w op) :
    ∃ r, row32 op = some r ∧ fixed32 isa w r := by
  obtain ⟨-, -, h3⟩ := h
  split at h3
  · exact h3.elim
  · exact ⟨_, ‹_›, h3⟩

/-- The assembled word of a well-formed value is an encoding of its opcode and reads back as it. -/
theorem asm32_official (isa : Isa) (i : Instruction) (h : WF32 isa i) :
    asm32 i < 2 ^ 32 ∧ official32 isa (asm32 i) i.opc ∧
      ∃ r, row32 i.opc = some r ∧ i = value32 isa (asm32 i) i.opc r.fmt := by
  obtain ⟨he, hc, hz, r, hr, hf, ho⟩ := h
  obtain ⟨h1, h2, h3, h4, h5, h6⟩ := encode32_spec isa i.opc r i hr ho (asm32 i)
    (by simp only [asm32, hr])
  refine ⟨h1, ⟨he, ?_, by rw [hr]; exact h2⟩, r, hr, ?_⟩
  · intro hop
    have hr' : r = ⟨.CsrR, 0x73, 2, 0x00⟩ := by
      rw [hop] at hr
      simpa [row32] using hr.symm
    rw [hr'] at h5
    exact hc hop _ h5.symm
  · rcases i with ⟨opc, rd, rs1, rs2, imm, ifmt, ic⟩
    simp only [value32] at *
    rw [h3, h4, h5, h6, hf, hz]

/-- C28.  Assembling a well-formed instruction value and decoding the word gives the value back. -/
theorem C28_encode_decode (isa : Isa) (i : Instruction) (h : WF32 isa i) :
    asm32 i < 2 ^ 32 ∧ U32.decode (BitVec.ofNat 32 (asm32 i)) isa = .ok i := by
  obtain ⟨h1, h2, r, hr, h3⟩ := asm32_official isa i h
  refine ⟨h1, (decode32_ok_iff _ _ _).2 ⟨r, hr, ?_, ?_⟩⟩
  · rw [toNat_ofNat32 _ h1]; exact official_accepts32 _ _ _ h2
  · rw [toNat_ofNat32 _ h1]; exact h3

example : WF32 .Rv32 ⟨.BaseI .BEQ, none, some 5, some 31, some (-4096), .BFormat, false⟩ := by
  refine ⟨by simp [existsIn, gated64], by simp, rfl, _, rfl, rfl, rfl, ⟨5, rfl, by decide⟩,
    ⟨31, rfl, by decide⟩, ⟨-4096, rfl, by simp [immRange32]⟩⟩
example : asm32 ⟨.BaseI .BEQ, none, some 5, some 31, some (-4096), .BFormat, false⟩
    = 0x81f28063 := by decide

/-- What decoding an official word gives is well-formed. -/
theorem official_wf (w : BitVec 32) (isa : Isa) (i : Instruction) (h : U32.decode w isa = .ok i)
    (ho : official32 isa w.toNat i.opc) : WF32 isa i := by
  obtain ⟨r, hr, -, hi⟩ := (decode32_ok_iff w isa i).1 h
  obtain ⟨r', hr', hf⟩ := official_row _ _ _ ho
  rw [hr] at hr'; injection hr' with hr'; subst hr'
  have hrange := fun z (hz : imm32 isa w.toNat r.fmt = some z) => immRange32_of isa w.toNat r.fmt z hz
  refine ⟨ho.1, ?_, by rw [hi]; rfl, r, hr, by rw [hi]; rfl, ?_⟩
  · intro hop c hc
    have hr' : r = ⟨.CsrR, 0x73, 2, 0x00⟩ := by
      rw [hop] at hr
      simpa [row32] using hr.symm
    have e : i.rs2 = some (fld w.toNat 31 20) := by rw [hi, hr']; rfl
    rw [hc] at e
    injection e with e
    rw [e]
    exact ho.2.1 hop
  · have e1 : i.rd = rd32 w.toNat r.fmt := by rw [hi]; rfl
    have e2 : i.rs1 = rs132 w.toNat r.fmt := by rw [hi]; rfl
    have e3 : i.rs2 = rs232 w.toNat r.fmt := by rw [hi]; rfl
    have e4 : i.imm = imm32 isa w.toNat r.fmt := by rw [hi]; rfl
    have b1 := fld_lt w.toNat 11 7
    have b2 := fld_lt w.toNat 19 15
    have b3 := fld_lt w.toNat 24 20
    have b4 := fld_lt w.toNat 31 20
    clear hi h ho hr
    obtain ⟨f, major, f3, code⟩ := r
    simp only at *
    cases f
    case SsPush =>
      simp only [fixed32] at hf
      simp only [operands32, e1, e2, e3, e4, rd32, rs132, rs232, imm32, Option.some.injEq]
      exact ⟨trivial, trivial, hf.2.2.2.2.2, trivial⟩
    case SsPop =>
      simp only [fixed32] at hf
      simp only [operands32, e1, e2, e3, e4, rd32, rs132, rs232, imm32, Option.some.injEq]
      exact ⟨trivial, hf.2.2.2.2, trivial, trivial⟩
    case SsRd =>
      simp only [fixed32] at hf
      simp only [operands32, e1, e2, e3, e4, rd32, rs132, rs232, imm32, isReg, ne_eq,
        Option.some.injEq]
      exact ⟨⟨_, rfl, b1⟩, hf.2.2.2.2, trivial, trivial, trivial⟩
    case ShX =>
      cases isa
      all_goals
        simp only [operands32, e1, e2, e3, e4, rd32, rs132, rs232, imm32]
        exact ⟨⟨_, rfl, b1⟩, ⟨_, rfl, b2⟩, trivial, ⟨_, rfl, hrange _ rfl⟩⟩
    all_goals simp only [operands32, e1, e2, e3, e4, rd32, rs132, rs232, imm32]
    case R | SsAmo => exact ⟨⟨_, rfl, b1⟩, ⟨_, rfl, b2⟩, ⟨_, rfl, b3⟩, trivial⟩
    case I | ShW | Lr | Fence =>
      exact ⟨⟨_, rfl, b1⟩, ⟨_, rfl, b2⟩, trivial, ⟨_, rfl, hrange _ rfl⟩⟩
    case S | B => exact ⟨trivial, ⟨_, rfl, b2⟩, ⟨_, rfl, b3⟩, ⟨_, rfl, hrange _ rfl⟩⟩
    case U | J => exact ⟨⟨_, rfl, b1⟩, trivial, trivial, ⟨_, rfl, hrange _ rfl⟩⟩
    case Amo => exact ⟨⟨_, rfl, b1⟩, ⟨_, rfl, b2⟩, ⟨_, rfl, b3⟩, ⟨_, rfl, hrange _ rfl⟩⟩
    case CsrR => exact ⟨⟨_, rfl, b1⟩, ⟨_, rfl, b2⟩, ⟨_, rfl, b4⟩, trivial⟩
    case CsrI => exact ⟨⟨_, rfl, b1⟩, trivial, ⟨_, rfl, b4⟩, ⟨_, rfl, hrange _ rfl⟩⟩
    case Cbo => exact ⟨trivial, ⟨_, rfl, b2⟩, trivial, trivial⟩
    case Cntr => exact ⟨⟨_, rfl, b1⟩, trivial, trivial, trivial⟩
    case Sys => exact ⟨trivial, trivial, trivial, trivial⟩
    case SfVma => exact ⟨trivial, ⟨_, rfl, b2⟩, ⟨_, rfl, b3⟩, trivial⟩

/-- C28.  The well-formed values are exactly those the decoder produces on standard encodings. -/
theorem C28_wellformed_iff (isa : Isa) (i : Instruction) :
    WF32 isa i ↔ ∃ w : BitVec 32, official32 isa w.toNat i.opc ∧ U32.decode w isa = .ok i := by
  constructor
  · intro h
    obtain ⟨h1, h2, -⟩ := asm32_official isa i h
    exact ⟨BitVec.ofNat 32 (asm32 i), by rw [toNat_ofNat32 _ h1]; exact h2,
      (C28_encode_decode isa i h).2⟩
  · rintro ⟨w, h1, h2⟩
    exact official_wf w isa i h2 h1

/-! ## From words -/

/-- C29 is false: shadow-stack swaps drop the aq and rl bits. -/
theorem C29_refuted : ¬ ∀ (w : BitVec 32) (isa : Isa) (i : Instruction),
    U32.decode w isa = .ok i → official32 isa w.toNat i.opc → asm32 i = w.toNat := by
  intro h
  have := h 0x4c5325af .Rv64 _ rfl (by simp [official32, existsIn, gated64, row32, fixed32, fld])
  revert this
  decide

/-- C29 for every standard encoding except shadow-stack swaps with aq or rl set.  Missing: those words,
for which the statement fails. -/
theorem C29_decode_encode_partial (w : BitVec 32) (isa : Isa) (i : Instruction)
    (h : U32.decode w isa = .ok i) (ho : official32 isa w.toNat i.opc)
    (hs : i.opc = .Zicfiss .SSAMOSWAP_W ∨ i.opc = .Zicfiss .SSAMOSWAP_D → fld w.toNat 26 25 = 0) :
    asm32 i = w.toNat := by
  obtain ⟨r, hr, -, hi⟩ := (decode32_ok_iff w isa i).1 h
  obtain ⟨r', hr', hf⟩ := official_row _ _ _ ho
  rw [hr] at hr'; injection hr' with hr'; subst hr'
  have hss : r.fmt = .SsAmo → fld w.toNat 26 25 = 0 := by
    intro hfm
    apply hs
    clear hi h ho hf hs
    revert hr hfm
    rcases i.opc with o | o | o | o | o | o | o | o | o | o
    all_goals cases o
    all_goals intro hr hfm
    all_goals simp [row32] at hr
    all_goals subst hr
    all_goals first | (exact absurd hfm (by decide)) | simp
  have := encode32_fields isa w.toNat w.isLt i.opc r hr hf hss
  simp only [asm32, hr]
  rw [show i.rd = rd32 w.toNat r.fmt by rw [hi]; rfl, show i.rs1 = rs132 w.toNat r.fmt by rw [hi]; rfl,
    show i.rs2 = rs232 w.toNat r.fmt by rw [hi]; rfl,
    show i.imm = imm32 isa w.toNat r.fmt by rw [hi]; rfl]
  exact this

/-- C29, injectivity: two standard words (other than shadow-stack swaps with aq or rl set) that decode
to the same value are equal. -/
theorem C29_injective_partial (w w' : BitVec 32) (isa : Isa) (i : Instruction)
    (h : U32.decode w isa = .ok i) (h' : U32.decode w' isa = .ok i)
    (ho : official32 isa w.toNat i.opc) (ho' : official32 isa w'.toNat i.opc)
    (hs : i.opc = .Zicfiss .SSAMOSWAP_W ∨ i.opc = .Zicfiss .SSAMOSWAP_D →
      fld w.toNat 26 25 = 0 ∧ fld w'.toNat 26 25 = 0) : w = w' := by
  apply BitVec.eq_of_toNat_eq
  rw [← C29_decode_encode_partial w isa i h ho (fun e => (hs e).1),
    C29_decode_encode_partial w' isa i h' ho' (fun e => (hs e).2)]

example : ∃ i, U32.decode 0xfe209ee3 .Rv32 = .ok i ∧ official32 .Rv32 0xfe209ee3 i.opc ∧
    asm32 i = 0xfe209ee3 :=
  ⟨_, rfl, by simp [official32, existsIn, gated64, row32, fixed32, fld], by decide⟩

/-! ## Exact ambiguity -/

theorem sext_inj (n x y : Nat) (hx : x < 2 ^ n) (hy : y < 2 ^ n) (h : sext n x = sext n y) : x = y := by
  rw [← ofI_sext n x hx, ← ofI_sext n y hy, h]

/-- The reported operands agree exactly if the operand fields do. -/
theorem operands_fields (isa : Isa) (f : Fmt32) (w w' : Nat) :
    (rd32 w' f = rd32 w f ∧ rs132 w' f = rs132 w f ∧ rs232 w' f = rs232 w f ∧
      imm32 isa w' f = imm32 isa w f) ↔
    ∀ p ∈ operandFields32 isa f, fld w' p.1 p.2 = fld w p.1 p.2 := by
  obtain ⟨d1, d2, d3, d4, d5, d6, d7, d8, d9, d10, d11, d12, d13⟩ := fld_derived w
  obtain ⟨c1, c2, c3, c4, c5, c6⟩ := bounds6 w
  obtain ⟨d1', d2', d3', d4', d5', d6', d7', d8', d9', d10', d11', d12', d13'⟩ := fld_derived w'
  obtain ⟨c1', c2', c3', c4', c5', c6'⟩ := bounds6 w'
  cases f
  case ShX =>
    cases isa
    all_goals
      simp only [rd32, rs132, rs232, imm32, operandFields32, Option.some.injEq, List.mem_cons,
        List.not_mem_nil, or_false, forall_eq_or_imp, forall_eq, true_and, and_true, Int.natCast_inj]
  case I =>
    simp only [rd32, rs132, rs232, imm32, operandFields32, Option.some.injEq, List.mem_cons,
      List.not_mem_nil, or_false, forall_eq_or_imp, forall_eq, true_and, and_true, immI]
    constructor
    · rintro ⟨h1, h2, h3⟩
      exact ⟨h1, h2, sext_inj 12 _ _ (fld_lt _ _ _) (fld_lt _ _ _) h3⟩
    · rintro ⟨h1, h2, h3⟩
      exact ⟨h1, h2, by rw [h3]⟩
  case S =>
    simp only [rd32, rs132, rs232, imm32, operandFields32, Option.some.injEq, List.mem_cons,
      List.not_mem_nil, or_false, forall_eq_or_imp, forall_eq, true_and, and_true, immS]
    constructor
    · rintro ⟨h1, h2, h3⟩
      have := sext_inj 12 _ _ (by omega) (by omega) h3
      exact ⟨by omega, h1, h2, by omega⟩
    · rintro ⟨h1, h2, h3, h4⟩
      exact ⟨h2, h3, by rw [h1, h4]⟩
  case B =>
    simp only [rd32, rs132, rs232, imm32, operandFields32, Option.some.injEq, List.mem_cons,
      List.not_mem_nil, or_false, forall_eq_or_imp, forall_eq, true_and, and_true, immB]
    constructor
    · rintro ⟨h1, h2, h3⟩
      have := sext_inj 13 _ _ (by omega) (by omega) h3
      obtain ⟨g1, g2, g3, g4⟩ := fieldsB (u := fld w 31 31 * 2 ^ 12 + fld w 7 7 * 2 ^ 11
        + fld w 30 25 * 2 ^ 5 + fld w 11 8 * 2) rfl (fld_lt _ _ _) (fld_lt _ _ _) (fld_lt _ _ _)
        (fld_lt _ _ _)
      obtain ⟨g1', g2', g3', g4'⟩ := fieldsB (u := fld w' 31 31 * 2 ^ 12 + fld w' 7 7 * 2 ^ 11
        + fld w' 30 25 * 2 ^ 5 + fld w' 11 8 * 2) rfl (fld_lt _ _ _) (fld_lt _ _ _) (fld_lt _ _ _)
        (fld_lt _ _ _)
      rw [this] at g1' g2' g3' g4'
      rw [g1] at g1'
      rw [g2] at g2'
      rw [g3] at g3'
      rw [g4] at g4'
      exact ⟨by omega, h1, h2, by omega⟩
    · rintro ⟨h1, h2, h3, h4⟩
      refine ⟨h2, h3, ?_⟩
      rw [d6', d7', d8', d9', d6, d7, d8, d9, h1, h4]
  case U =>
    simp only [rd32, rs132, rs232, imm32, operandFields32, Option.some.injEq, List.mem_cons,
      List.not_mem_nil, or_false, forall_eq_or_imp, forall_eq, true_and, and_true, immU,
      Int.natCast_inj]
  case J =>
    simp only [rd32, rs132, rs232, imm32, operandFields32, Option.some.injEq, List.mem_cons,
      List.not_mem_nil, or_false, forall_eq_or_imp, forall_eq, true_and, and_true, immJ]
    constructor
    · rintro ⟨h1, h2⟩
      have := sext_inj 21 _ _ (by omega) (by omega) h2
      obtain ⟨g1, g2, g3, g4⟩ := fieldsJ (u := fld w 31 31 * 2 ^ 20 + fld w 19 12 * 2 ^ 12
        + fld w 20 20 * 2 ^ 11 + fld w 30 21 * 2) rfl (fld_lt _ _ _) (fld_lt _ _ _) (fld_lt _ _ _)
        (fld_lt _ _ _)
      obtain ⟨g1', g2', g3', g4'⟩ := fieldsJ (u := fld w' 31 31 * 2 ^ 20 + fld w' 19 12 * 2 ^ 12
        + fld w' 20 20 * 2 ^ 11 + fld w' 30 21 * 2) rfl (fld_lt _ _ _) (fld_lt _ _ _) (fld_lt _ _ _)
        (fld_lt _ _ _)
      rw [this] at g1' g2' g3' g4'
      rw [g1] at g1'
      rw [g2] at g2'
      rw [g3] at g3'
      rw [g4] at g4'
      exact ⟨h1, by omega⟩
    · rintro ⟨h1, h2⟩
      refine ⟨h1, ?_⟩
      rw [d10, d10'] at h2
      have e1 : fld w' 31 25 = fld w 31 25 := by omega
      have e2 : fld w' 24 20 = fld w 24 20 := by omega
      have e3 : fld w' 19 15 = fld w 19 15 := by omega
      have e4 : fld w' 14 12 = fld w 14 12 := by omega
      rw [d6', d11', d12', d13', d6, d11, d12, d13, e1, e2, e3, e4]
  all_goals
    clear d1 d2 d3 d4 d5 d6 d7 d8 d9 d10 d11 d12 d13 d1' d2' d3' d4' d5' d6' d7' d8' d9' d10' d11'
      d12' d13'
    simp [rd32, rs132, rs232, imm32, operandFields32]
    try omega

/-- C44.  Which other words decode to the same value: exactly those recognised as the same instruction
whose operand fields agree. -/
theorem C44_same_value_iff (w w' : BitVec 32) (isa : Isa) (i : Instruction) (r : Row)
    (h : U32.decode w isa = .ok i) (hr : row32 i.opc = some r) :
    U32.decode w' isa = .ok i ↔ accepts32 isa w'.toNat i.opc ∧
      ∀ p ∈ operandFields32 isa r.fmt, fld w'.toNat p.1 p.2 = fld w.toNat p.1 p.2 := by
  obtain ⟨r', hr', -, hi⟩ := (decode32_ok_iff w isa i).1 h
  rw [hr] at hr'; injection hr' with hr'; subst hr'
  rw [decode32_ok_iff, ← operands_fields]
  have e1 : i.rd = rd32 w.toNat r.fmt := by rw [hi]; rfl
  have e2 : i.rs1 = rs132 w.toNat r.fmt := by rw [hi]; rfl
  have e3 : i.rs2 = rs232 w.toNat r.fmt := by rw [hi]; rfl
  have e4 : i.imm = imm32 isa w.toNat r.fmt := by rw [hi]; rfl
  constructor
  · rintro ⟨r', hr', ha, hi'⟩
    rw [hr] at hr'; injection hr' with hr'; subst hr'
    refine ⟨ha, ?_⟩
    rw [← e1, ← e2, ← e3, ← e4]
    refine ⟨?_, ?_, ?_, ?_⟩ <;> (rw [hi']; rfl)
  · rintro ⟨ha, h1, h2, h3, h4⟩
    refine ⟨r, hr, ha, ?_⟩
    rw [hi]
    simp only [value32, h1, h2, h3, h4]

/-- `jalr` ignores funct3. -/
example : ∃ i, U32.decode 0x000080e7 .Rv32 = .ok i ∧ U32.decode 0x000090e7 .Rv32 = .ok i :=
  ⟨_, rfl, rfl⟩

end Raki
