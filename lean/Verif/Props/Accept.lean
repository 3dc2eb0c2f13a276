import Verif.Lemmas.Decode32
import Verif.Lemmas.Decode16
import Verif.Lemmas.Official
/-!
# Which inputs are recognised as which instruction (C05-C10, C37, C38, C41, C42)
-/

namespace Raki

open Spec

set_option linter.unusedSimpArgs false

/-! ## 32-bit -/

/-- C05.  Every word the manuals assign to an instruction is decoded as that instruction. -/
theorem C05_official32_decoded (w : BitVec 32) (isa : Isa) (op : OpcodeKind)
    (h : official32 isa w.toNat op) : ∃ i, U32.decode w isa = .ok i ∧ i.opc = op :=
  (decode32_accepts w isa op).2 (official_accepts32 _ _ _ h)

example : official32 .Rv32 0x00500093 (.BaseI .ADDI) := by
  simp [official32, existsIn, gated64, row32, fixed32, fld]
example : official32 .Rv64 0x1005a52f (.A .LR_W) := by
  simp [official32, existsIn, gated64, row32, fixed32, fld]

/-- C06 is false of the code: `jalr` with funct3 = 1 is reported as `jalr`. -/
theorem C06_refuted : ¬ ∀ (w : BitVec 32) (isa : Isa) (i : Instruction),
    U32.decode w isa = .ok i → official32 isa w.toNat i.opc := by
  intro h
  have := h 0x00001067 .Rv32 _ rfl
  simp [official32, row32, fixed32, fld] at this

/-- C06, the part that holds: for the opcodes listed by `strict32` a word is reported as `op` exactly
when the manuals assign it to `op`.  Missing: the other opcodes, for which the statement is false; see
`C06_strict_is_exact` and, for what is accepted instead, `C07_accepts32_exact`. -/
theorem C06_sound32_partial (w : BitVec 32) (isa : Isa) (op : OpcodeKind) (hs : strict32 op = true) :
    (∃ i, U32.decode w isa = .ok i ∧ i.opc = op) ↔ official32 isa w.toNat op := by
  rw [decode32_accepts]
  exact ⟨strict_official32 _ _ _ hs, official_accepts32 _ _ _⟩

/-- A word accepted as `op` although it is not an encoding of it, for each lax opcode. -/
def laxWitness : OpcodeKind → BitVec 32 × Isa
  | .BaseI .JALR => (0x00001067, .Rv32)
  | .BaseI .SLL => (0x04001033, .Rv32)
  | .BaseI .SLT => (0x04002033, .Rv32)
  | .BaseI .SLTU => (0x04003033, .Rv32)
  | .BaseI .XOR => (0x04004033, .Rv32)
  | .BaseI .OR => (0x04006033, .Rv32)
  | .BaseI .AND => (0x04007033, .Rv32)
  | .BaseI .SLLIW => (0x0200101b, .Rv64)
  | .BaseI .SLLW => (0x4000103b, .Rv64)
  | .BaseI .ECALL => (0x000000f3, .Rv32)
  | .BaseI .EBREAK => (0x001000f3, .Rv32)
  | .A .LR_W => (0x1010202f, .Rv32)
  | .A .LR_D => (0x1010302f, .Rv64)
  | .Zicfiss .SSPUSH => (0xce1040f3, .Rv32)
  | .Zicfiss .SSPOPCHK => (0xcdc14073, .Rv32)
  | .Zicfiss .SSRDP => (0xcdc04073, .Rv32)
  | .Zicfiss .SSAMOSWAP_D => (0x4800302f, .Rv32)
  | .Zicntr .RDCYCLE => (0xc000a073, .Rv32)
  | .Zicntr .RDTIME => (0xc010a073, .Rv32)
  | .Zicntr .RDINSTRET => (0xc020a073, .Rv32)
  | .Zicntr .RDCYCLE_H => (0xc8002073, .Rv64)
  | .Zicntr .RDTIME_H => (0xc8102073, .Rv64)
  | .Zicntr .RDINSTRET_H => (0xc8202073, .Rv64)
  | .Priv .SFENCE_VMA => (0x120000f3, .Rv32)
  | _ => (0, .Rv32)

/-- C06.  The list of lax opcodes is exact: the statement of C06 restricted to one opcode holds if and
only if the opcode is in `strict32`. -/
theorem C06_strict_is_exact (op : OpcodeKind) :
    (∀ (w : BitVec 32) (isa : Isa) (i : Instruction),
      U32.decode w isa = .ok i → i.opc = op → official32 isa w.toNat op) ↔ strict32 op = true := by
  constructor
  · intro h
    have h := h (laxWitness op).1 (laxWitness op).2
    rcases op with o | o | o | o | o | o | o | o | o | o
    all_goals cases o
    all_goals first
      | rfl
      | (exfalso
         have := h _ rfl rfl
         simp [laxWitness, official32, existsIn, gated64, row32, fixed32, fld] at this)
  · rintro hs w isa i hd rfl
    exact (C06_sound32_partial w isa _ hs).1 ⟨i, hd, rfl⟩

/-- C07.  The exact acceptance set of the 32-bit decoder, per opcode. -/
theorem C07_accepts32_exact (w : BitVec 32) (isa : Isa) (op : OpcodeKind) :
    (∃ i, U32.decode w isa = .ok i ∧ i.opc = op) ↔ accepts32 isa w.toNat op :=
  decode32_accepts w isa op

example : accepts32 .Rv32 0x00001067 (.BaseI .JALR) := by simp [accepts32, gated64, fld]
example : ¬ accepts32 .Rv32 0x00003003 (.BaseI .LD) := by simp [accepts32, gated64]

/-! ## 16-bit -/

/-- C08 is false of the code: the hint `c.add x0, x1` is reported as `c.ebreak`. -/
theorem C08_refuted : ¬ ∀ (h : BitVec 16) (isa : Isa) (op : OpcodeKind),
    official16 isa h.toNat op → ∃ i, U16.decode h isa = .ok i ∧ i.opc = op := by
  intro h
  obtain ⟨i, hi, ho⟩ := h 0x9006 .Rv64 (.C .ADD) (by simp [official16, quad, fld])
  rw [show U16.decode 0x9006 .Rv64 = .ok ⟨.C .EBREAK, none, none, none, none, .NoOperand, true⟩
    from rfl] at hi
  injection hi with hi
  subst hi
  exact absurd ho (by decide)

/-- C08, the part that holds: every halfword the manual assigns to an instruction is decoded as that
instruction.  Missing: the hints `c.add x0, rs2`. -/
theorem C08_official16_decoded_partial (h : BitVec 16) (isa : Isa) (op : OpcodeKind)
    (ho : official16 isa h.toNat op) (hne : ¬ (op = .C .ADD ∧ fld h.toNat 11 7 = 0)) :
    ∃ i, U16.decode h isa = .ok i ∧ i.opc = op :=
  (decode16_accepts h isa op).2 (official16_accepts16 _ _ _ ho hne)

/-- C08.  What happens on the excluded hints: they are always reported as `c.ebreak`. -/
theorem C08_add_x0 (h : BitVec 16) (isa : Isa) (ho : official16 isa h.toNat (.C .ADD))
    (h0 : fld h.toNat 11 7 = 0) : ∃ i, U16.decode h isa = .ok i ∧ i.opc = .C .EBREAK :=
  (decode16_accepts h isa _).2 ⟨ho.1, ho.2.1, h0⟩

example : official16 .Rv32 0x4501 (.C .LI) := by simp [official16, quad, fld]
example : official16 .Rv32 0x9006 (.C .ADD) ∧ fld 0x9006 11 7 = 0 := by simp [official16, quad, fld]

/-- C09 is false of the code: the reserved `c.lwsp x0` is accepted. -/
theorem C09_refuted : ¬ ∀ (h : BitVec 16) (isa : Isa) (i : Instruction),
    U16.decode h isa = .ok i → official16 isa h.toNat i.opc := by
  intro h
  have := h 0x4002 .Rv32 _ rfl
  simp [official16, quad, fld] at this

/-- C09, the part that holds: for the opcodes listed by `strict16` a halfword is reported as `op`
exactly when the manual assigns it to `op`.  Missing: the other opcodes, for which reserved encodings
are accepted; see `C09_strict_is_exact` and `C10_accepts16_exact`. -/
theorem C09_sound16_partial (h : BitVec 16) (isa : Isa) (op : OpcodeKind) (hs : strict16 op = true) :
    (∃ i, U16.decode h isa = .ok i ∧ i.opc = op) ↔ official16 isa h.toNat op := by
  rw [decode16_accepts]
  refine ⟨strict_official16 _ _ _ hs, fun ho => official16_accepts16 _ _ _ ho ?_⟩
  rintro ⟨rfl, -⟩
  cases hs

/-- A halfword accepted as `op` although it is not an encoding of it, for each lax opcode. -/
def laxWitness16 : OpcodeKind → BitVec 16 × Isa
  | .C .ADDI4SPN => (0x0004, .Rv32)
  | .C .ADDIW => (0x2001, .Rv64)
  | .C .ADDI16SP => (0x6101, .Rv32)
  | .C .LUI => (0x6181, .Rv32)
  | .C .SRLI => (0x9001, .Rv32)
  | .C .SRAI => (0x9401, .Rv32)
  | .C .SLLI => (0x1002, .Rv32)
  | .C .LWSP => (0x4002, .Rv32)
  | .C .LDSP => (0x6002, .Rv64)
  | .C .JR => (0x8002, .Rv32)
  | .C .EBREAK => (0x9006, .Rv32)
  | _ => (0, .Rv32)

/-- C09.  The list of lax opcodes is exact, apart from `c.add` (all halfwords reported as `c.add` are
encodings of it, but not conversely). -/
theorem C09_strict_is_exact (op : OpcodeKind) :
    (∀ (h : BitVec 16) (isa : Isa) (i : Instruction),
      U16.decode h isa = .ok i → i.opc = op → official16 isa h.toNat op)
      ↔ strict16 op = true ∨ op = .C .ADD := by
  constructor
  · intro h
    have h := h (laxWitness16 op).1 (laxWitness16 op).2
    rcases op with o | o | o | o | o | o | o | o | o | o
    case C =>
      cases o
      all_goals first
        | exact .inl rfl
        | exact .inr rfl
        | (exfalso
           have := h _ rfl rfl
           simp [laxWitness16, official16, quad, fld] at this)
    all_goals exact .inl rfl
  · rintro (hs | rfl) h isa i hd ho
    · subst ho
      exact (C09_sound16_partial h isa _ hs).1 ⟨i, hd, rfl⟩
    · have ha := (decode16_accepts h isa (.C .ADD)).1 ⟨i, hd, ho⟩
      exact ⟨ha.1, ha.2.1, ha.2.2.2⟩

/-- C10.  The exact acceptance set of the 16-bit decoder, per opcode. -/
theorem C10_accepts16_exact (h : BitVec 16) (isa : Isa) (op : OpcodeKind) :
    (∃ i, U16.decode h isa = .ok i ∧ i.opc = op) ↔ accepts16 isa h.toNat op :=
  decode16_accepts h isa op

example : accepts16 .Rv32 0x8002 (.C .JR) := by simp [accepts16, quad, fld]
example : ¬ accepts16 .Rv32 0x6002 (.C .LDSP) := by simp [accepts16]

/-! ## Overlaps -/

/-- C37.  `csrrs` on a counter CSR is always reported as the counter read. -/
theorem C37_counters (w : BitVec 32) (isa : Isa) (h1 : fld w.toNat 6 0 = 0x73)
    (h2 : fld w.toNat 14 12 = 2) (h3 : counterCsr (fld w.toNat 31 20)) :
    ∃ i o, U32.decode w isa = .ok i ∧ i.opc = .Zicntr o := by
  rcases h3 with h | h | h | h | h | h
  · obtain ⟨i, hi, ho⟩ := (decode32_accepts w isa (.Zicntr .RDCYCLE)).2
      (by simp [accepts32, gated64, *])
    exact ⟨i, _, hi, ho⟩
  · obtain ⟨i, hi, ho⟩ := (decode32_accepts w isa (.Zicntr .RDTIME)).2
      (by simp [accepts32, gated64, *])
    exact ⟨i, _, hi, ho⟩
  · obtain ⟨i, hi, ho⟩ := (decode32_accepts w isa (.Zicntr .RDINSTRET)).2
      (by simp [accepts32, gated64, *])
    exact ⟨i, _, hi, ho⟩
  · obtain ⟨i, hi, ho⟩ := (decode32_accepts w isa (.Zicntr .RDCYCLE_H)).2
      (by simp [accepts32, gated64, *])
    exact ⟨i, _, hi, ho⟩
  · obtain ⟨i, hi, ho⟩ := (decode32_accepts w isa (.Zicntr .RDTIME_H)).2
      (by simp [accepts32, gated64, *])
    exact ⟨i, _, hi, ho⟩
  · obtain ⟨i, hi, ho⟩ := (decode32_accepts w isa (.Zicntr .RDINSTRET_H)).2
      (by simp [accepts32, gated64, *])
    exact ⟨i, _, hi, ho⟩

/-- C37.  funct7 = 1 in OP and OP-32 is never a base instruction: what is decoded is an M one. -/
theorem C37_m (w : BitVec 32) (isa : Isa) (i : Instruction)
    (h1 : fld w.toNat 6 0 = 0x33 ∨ fld w.toNat 6 0 = 0x3b) (h2 : fld w.toNat 31 25 = 1)
    (hd : U32.decode w isa = .ok i) : ∃ o, i.opc = .M o := by
  have ha := (decode32_accepts w isa i.opc).1 ⟨i, hd, rfl⟩
  revert ha
  rcases i.opc with o | o | o | o | o | o | o | o | o | o
  case M => exact fun _ => ⟨o, rfl⟩
  all_goals intro ha; exfalso
  all_goals cases o
  all_goals simp [accepts32, gated64, row32, fixed32, h2] at ha
  all_goals omega

/-- C37.  SYSTEM with funct3 = 4 is never a CSR instruction: what is decoded is a shadow-stack one. -/
theorem C37_system4 (w : BitVec 32) (isa : Isa) (i : Instruction)
    (h1 : fld w.toNat 6 0 = 0x73) (h2 : fld w.toNat 14 12 = 4)
    (hd : U32.decode w isa = .ok i) : ∃ o, i.opc = .Zicfiss o := by
  have ha := (decode32_accepts w isa i.opc).1 ⟨i, hd, rfl⟩
  revert ha
  rcases i.opc with o | o | o | o | o | o | o | o | o | o
  case Zicfiss => exact fun _ => ⟨o, rfl⟩
  all_goals intro ha; exfalso
  all_goals cases o
  all_goals simp [accepts32, gated64, row32, fixed32, h1, h2] at ha

/-- C37.  AMO with funct5 = 9 is always a shadow-stack swap, never an A-extension one. -/
theorem C37_ssamoswap (w : BitVec 32) (isa : Isa) (i : Instruction)
    (h1 : fld w.toNat 6 0 = 0x2f) (h2 : fld w.toNat 31 27 = 9)
    (hd : U32.decode w isa = .ok i) : i.opc = .Zicfiss .SSAMOSWAP_W ∨ i.opc = .Zicfiss .SSAMOSWAP_D := by
  have ha := (decode32_accepts w isa i.opc).1 ⟨i, hd, rfl⟩
  revert ha
  rcases i.opc with o | o | o | o | o | o | o | o | o | o
  all_goals intro ha
  all_goals cases o
  all_goals first
    | exact .inl rfl
    | exact .inr rfl
    | (exfalso; simp [accepts32, gated64, row32, fixed32, h1, h2] at ha)

/-- C37.  0x6081 and 0x6281 are the compressed shadow-stack instructions under both ISAs. -/
theorem C37_compressed_shadow_stack (isa : Isa) :
    (∃ i, U16.decode 0x6081 isa = .ok i ∧ i.opc = .Zicfiss .C_SSPUSH) ∧
    (∃ i, U16.decode 0x6281 isa = .ok i ∧ i.opc = .Zicfiss .C_SSPOPCHK) := by
  cases isa <;> exact ⟨⟨_, rfl, rfl⟩, ⟨_, rfl, rfl⟩⟩

example : ∃ i, U32.decode 0xc00022f3 .Rv64 = .ok i ∧ i.opc = .Zicntr .RDCYCLE := ⟨_, rfl, rfl⟩
example : ∃ i, U32.decode 0x02a5053b .Rv64 = .ok i ∧ i.opc = .M .MULW := ⟨_, rfl, rfl⟩
example : ∃ i, U32.decode 0xcdc0c073 .Rv64 = .ok i ∧ i.opc = .Zicfiss .SSPOPCHK := ⟨_, rfl, rfl⟩
example : ∃ i, U32.decode 0x4a52a3af .Rv64 = .ok i ∧ i.opc = .Zicfiss .SSAMOSWAP_W := ⟨_, rfl, rfl⟩

/-! ## Reachability -/

/-- A word built from an opcode's row, all operands zero except where the format forbids zero. -/
def sample32 (op : OpcodeKind) : Nat :=
  match row32 op with
  | none => 0
  | some r => r.major + r.f3 * 2 ^ 12 +
    match r.fmt with
    | .R | .ShX | .ShW | .SfVma => r.code * 2 ^ 25
    | .SsPush => r.code * 2 ^ 25 + 2 ^ 20
    | .Amo | .Lr | .SsAmo => r.code * 2 ^ 27
    | .Cbo | .Cntr | .Sys => r.code * 2 ^ 20
    | .SsPop => r.code * 2 ^ 20 + 2 ^ 15
    | .SsRd => r.code * 2 ^ 20 + 2 ^ 7
    | _ => 0

/-- C38.  Every opcode of every extension is produced by one of the two decoders. -/
theorem C38_no_dead_opcode (op : OpcodeKind) :
    (∃ w isa i, U32.decode w isa = .ok i ∧ i.opc = op) ∨
    (∃ h isa i, U16.decode h isa = .ok i ∧ i.opc = op) := by
  have key : (∃ i, U32.decode (BitVec.ofNat 32 (sample32 op)) .Rv64 = .ok i ∧ i.opc = op) →
      (∃ w isa i, U32.decode w isa = .ok i ∧ i.opc = op) ∨
      (∃ h isa i, U16.decode h isa = .ok i ∧ i.opc = op) := fun h => .inl ⟨_, _, h⟩
  rcases op with o | o | o | o | o | o | o | o | o | o
  case C =>
    right
    cases o
    case ADDI4SPN => exact ⟨0x0040, .Rv64, _, rfl, rfl⟩
    case LW => exact ⟨0x4000, .Rv64, _, rfl, rfl⟩
    case SW => exact ⟨0xc000, .Rv64, _, rfl, rfl⟩
    case NOP => exact ⟨0x0001, .Rv64, _, rfl, rfl⟩
    case ADDI => exact ⟨0x0081, .Rv64, _, rfl, rfl⟩
    case JAL => exact ⟨0x2001, .Rv32, _, rfl, rfl⟩
    case LI => exact ⟨0x4081, .Rv64, _, rfl, rfl⟩
    case ADDI16SP => exact ⟨0x6105, .Rv64, _, rfl, rfl⟩
    case LUI => exact ⟨0x6085, .Rv64, _, rfl, rfl⟩
    case SRLI => exact ⟨0x8001, .Rv64, _, rfl, rfl⟩
    case SRAI => exact ⟨0x8401, .Rv64, _, rfl, rfl⟩
    case ANDI => exact ⟨0x8801, .Rv64, _, rfl, rfl⟩
    case SUB => exact ⟨0x8c01, .Rv64, _, rfl, rfl⟩
    case XOR => exact ⟨0x8c21, .Rv64, _, rfl, rfl⟩
    case OR => exact ⟨0x8c41, .Rv64, _, rfl, rfl⟩
    case AND => exact ⟨0x8c61, .Rv64, _, rfl, rfl⟩
    case J => exact ⟨0xa001, .Rv64, _, rfl, rfl⟩
    case BEQZ => exact ⟨0xc001, .Rv64, _, rfl, rfl⟩
    case BNEZ => exact ⟨0xe001, .Rv64, _, rfl, rfl⟩
    case SLLI => exact ⟨0x0082, .Rv64, _, rfl, rfl⟩
    case LWSP => exact ⟨0x4082, .Rv64, _, rfl, rfl⟩
    case JR => exact ⟨0x8082, .Rv64, _, rfl, rfl⟩
    case MV => exact ⟨0x8086, .Rv64, _, rfl, rfl⟩
    case EBREAK => exact ⟨0x9002, .Rv64, _, rfl, rfl⟩
    case JALR => exact ⟨0x9082, .Rv64, _, rfl, rfl⟩
    case ADD => exact ⟨0x9086, .Rv64, _, rfl, rfl⟩
    case SWSP => exact ⟨0xc002, .Rv64, _, rfl, rfl⟩
    case LD => exact ⟨0x6000, .Rv64, _, rfl, rfl⟩
    case SD => exact ⟨0xe000, .Rv64, _, rfl, rfl⟩
    case ADDIW => exact ⟨0x2081, .Rv64, _, rfl, rfl⟩
    case SUBW => exact ⟨0x9c01, .Rv64, _, rfl, rfl⟩
    case ADDW => exact ⟨0x9c21, .Rv64, _, rfl, rfl⟩
    case LDSP => exact ⟨0x6082, .Rv64, _, rfl, rfl⟩
    case SDSP => exact ⟨0xe002, .Rv64, _, rfl, rfl⟩
  case Zicfiss =>
    cases o
    case C_SSPUSH => exact .inr ⟨0x6081, .Rv64, _, rfl, rfl⟩
    case C_SSPOPCHK => exact .inr ⟨0x6281, .Rv64, _, rfl, rfl⟩
    all_goals exact key ⟨_, rfl, rfl⟩
  all_goals cases o
  all_goals exact key ⟨_, rfl, rfl⟩

/-! ## Independence of the operand bits -/

/-- C41.  If a word decodes, any word that agrees with it on the examined fields of its opcode decodes
to the same opcode. -/
theorem C41_opcode_depends_on_examined (w w' : BitVec 32) (isa : Isa) (i : Instruction)
    (h : U32.decode w isa = .ok i)
    (hag : ∀ p ∈ examined32 isa i.opc, fld w.toNat p.1 p.2 = fld w'.toNat p.1 p.2) :
    ∃ i', U32.decode w' isa = .ok i' ∧ i'.opc = i.opc := by
  have ha := (decode32_accepts w isa i.opc).1 ⟨i, h, rfl⟩
  apply (decode32_accepts w' isa i.opc).2
  revert ha hag
  rcases i.opc with o | o | o | o | o | o | o | o | o | o
  all_goals cases o
  all_goals intro hag ha
  all_goals first
    | (simp [examined32, row32] at hag
       simp [accepts32, row32, fixed32] at ha ⊢
       simp [← hag, ha]
       done)
    | (cases isa <;> simp [examined32, row32] at hag
       all_goals simp [accepts32, row32, fixed32] at ha ⊢
       all_goals simp [← hag, ha]
       done)
    | (simp [examined32, row32] at hag
       simp [accepts32, row32, fixed32] at ha ⊢
       rw [← hag.1, ← hag.2.1, ← hag.2.2]
       exact ha)

/-- C41.  The examined fields contain no operand bits, except: the CSR number of `csrrs`, the link
register of `sspush`, and rs1 of `sspopchk`, which take part in recognising these. -/
theorem C41_operands_not_examined (isa : Isa) (op : OpcodeKind) (r : Row) (hr : row32 op = some r)
    (hne : op ≠ .Zicsr .CSRRS ∧ op ≠ .Zicfiss .SSPUSH ∧ op ≠ .Zicfiss .SSPOPCHK) :
    ∀ p ∈ examined32 isa op, ∀ q ∈ operandFields32 isa r.fmt, disjointFields p q = true := by
  rcases op with o | o | o | o | o | o | o | o | o | o
  all_goals cases o
  all_goals first
    | (cases hr; done)
    | (exact absurd rfl hne.1)
    | (exact absurd rfl hne.2.1)
    | (exact absurd rfl hne.2.2)
    | (cases hr; cases isa <;> decide)

example : ∃ i, U32.decode 0x00500093 .Rv64 = .ok i ∧
    ∀ p ∈ examined32 .Rv64 i.opc, fld 0x00500093 p.1 p.2 = fld 0xfff58513 p.1 p.2 :=
  ⟨_, rfl, by decide⟩

/-! ## Advertised instructions -/

/-- `fence.i`: MISC-MEM with funct3 = 1. -/
def isFenceI (w : Nat) : Prop := fld w 6 0 = 0x0f ∧ fld w 14 12 = 1

/-- C42.  What the code does on `fence.i`: no word of it decodes. -/
theorem C42_fence_i_rejected (w : BitVec 32) (isa : Isa) (h : isFenceI w.toNat) :
    U32.decode w isa = .err .UnknownExtension :=
  (decode32_err_iff w isa _).2 (.inl ⟨h.1, by simp [h.2]⟩)

/-- C42 is false of the code: `fence.i` is advertised (Zifencei) but does not decode. -/
theorem C42_refuted : ¬ ∀ (w : BitVec 32) (isa : Isa),
    (isFenceI w.toNat ∨ ∃ op, official32 isa w.toNat op) → ∃ i, U32.decode w isa = .ok i := by
  intro h
  obtain ⟨i, hi⟩ := h 0x0000100f .Rv64 (.inl (by simp [isFenceI, fld]))
  cases hi

/-- C42, the part that holds: every word of every other advertised 32-bit instruction decodes.
Missing: `fence.i`. -/
theorem C42_advertised32_partial (w : BitVec 32) (isa : Isa) (op : OpcodeKind)
    (h : official32 isa w.toNat op) : ∃ i, U32.decode w isa = .ok i :=
  (C05_official32_decoded w isa op h).imp fun _ h => h.1

/-- C42, compressed instructions: every halfword of every one decodes (the hints `c.add x0` included,
though under another name). -/
theorem C42_advertised16 (h : BitVec 16) (isa : Isa) (op : OpcodeKind)
    (ho : official16 isa h.toNat op) : ∃ i, U16.decode h isa = .ok i := by
  by_cases hx : op = .C .ADD ∧ fld h.toNat 11 7 = 0
  · obtain ⟨rfl, h0⟩ := hx
    exact (C08_add_x0 h isa ho h0).imp fun _ h => h.1
  · exact (C08_official16_decoded_partial h isa op ho hx).imp fun _ h => h.1

end Raki
