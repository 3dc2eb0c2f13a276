import Verif.Lemmas.TextInj
import Verif.Props.Operands
/-!
# Printed text (C17, C32–C36, C48, C49)
-/

namespace Raki

open Spec

set_option linter.unusedSimpArgs false

/-- The instruction was produced by one of the decoders. -/
def Decoded (i : Instruction) : Prop :=
  (∃ w isa, U32.decode w isa = .ok i) ∨ (∃ h isa, U16.decode h isa = .ok i)

/-! ## Which operands are reported and shown -/

theorem reported32 (w : BitVec 32) (isa : Isa) (i : Instruction) (h : U32.decode w isa = .ok i)
    (x : Operand) : hasOperand i x = true ↔ x ∈ reported i.opc := by
  obtain ⟨r, hr, -, hi⟩ := (decode32_ok_iff w isa i).1 h
  rw [show hasOperand i x = hasOperand (value32 isa w.toNat i.opc r.fmt) x by rw [← hi]]
  clear hi h
  revert hr
  rcases i.opc with o | o | o | o | o | o | o | o | o | o
  all_goals cases o
  all_goals intro hr
  all_goals first
    | (exfalso; revert hr; simp [row32]; done)
    | skip
  all_goals
    simp only [row32, Option.some.injEq] at hr
    subst hr
    cases x <;> cases isa <;>
      simp [reported, shown, args, Arg.shows, hidden, hasOperand, value32, rd32, rs132, rs232, imm32]

theorem reported16 (h : BitVec 16) (isa : Isa) (i : Instruction) (hd : U16.decode h isa = .ok i)
    (x : Operand) : hasOperand i x = true ↔ x ∈ reported i.opc := by
  obtain ⟨ha, hi⟩ := (decode16_ok_iff h isa i).1 hd
  have hc := accepts16_isC _ _ _ ha
  rw [show hasOperand i x = hasOperand (value16 h.toNat i.opc) x by rw [← hi]]
  clear hi hd ha
  revert hc
  rcases i.opc with o | o | o | o | o | o | o | o | o | o
  all_goals cases o
  all_goals intro hc
  all_goals first
    | (exfalso; exact hc; done)
    | skip
  all_goals
    cases x <;>
      simp [reported, shown, args, Arg.shows, hidden, hasOperand, value16, rd16, rs116, rs216, imm16]

/-- C17.  The operands present are those of the opcode's row: the ones shown, plus a listed set. -/
theorem C17_reported (i : Instruction) (h : Decoded i) (x : Operand) :
    hasOperand i x = true ↔ x ∈ reported i.opc := by
  rcases h with ⟨w, isa, h⟩ | ⟨w, isa, h⟩
  · exact reported32 w isa i h x
  · exact reported16 w isa i h x

theorem decoded_format (i : Instruction) (h : Decoded i) : i.instFormat = i.opc.getFormat := by
  rcases h with ⟨w, isa, h⟩ | ⟨w, isa, h⟩
  · exact (C27_metadata32 w isa i h).1
  · exact (C27_metadata16 w isa i h).1

theorem decoded_regs (i : Instruction) (h : Decoded i) :
    (∀ x, i.rd = some x → x < 32) ∧ (∀ x, i.rs1 = some x → x < 32) ∧
      (∀ x, i.rs2 = some x → (∀ o, i.opc ≠ .Zicsr o) → x < 32) := by
  rcases h with ⟨w, isa, h⟩ | ⟨w, isa, h⟩
  · obtain ⟨h1, h2, h3⟩ := C16_register_range32 w isa i h
    exact ⟨h1, h2, fun x hx => (h3 x hx).2⟩
  · obtain ⟨h1, h2, h3, -⟩ := C16_register_range16 w isa i h
    exact ⟨h1, h2, fun x hx _ => h3 x hx⟩

theorem formatArgs_of_args (op : OpcodeKind) (as : List Arg) (h : args op = some as) :
    formatArgs op.getFormat op = some as := by
  revert h
  rcases op with o | o | o | o | o | o | o | o | o | o
  all_goals cases o
  all_goals first
    | exact id
    | (intro h; simp [args] at h; done)

/-- C17.  Every operand that the reported format displays is present, except `rs2` of `sspopchk` and `rd` of
`sfence.vma`.  (No operand list exists for the format and opcode of `c.sspush` and `c.sspopchk`.) -/
theorem C17_format_shows (i : Instruction) (h : Decoded i) (as : List Arg)
    (hf : formatArgs i.instFormat i.opc = some as) (x : Operand) (hx : x ∈ as.flatMap Arg.shows) :
    hasOperand i x = true ↔ ¬ (i.opc = .Zicfiss .SSPOPCHK ∧ x = .rs2 ∨
      i.opc = .Priv .SFENCE_VMA ∧ x = .rd) := by
  rw [C17_reported i h x]
  rw [decoded_format i h] at hf
  clear h
  revert hf hx
  generalize i.opc = op
  rcases op with o | o | o | o | o | o | o | o | o | o
  all_goals cases o
  all_goals intro hf hx
  all_goals
    first
      | (cases hf; done)
      | (injection hf with hf
         subst hf
         revert hx
         cases x <;> decide)

example : ∃ i as, Decoded i ∧ formatArgs i.instFormat i.opc = some as ∧
    as.flatMap Arg.shows = [.rd, .rs1, .imm] :=
  ⟨_, _, .inl ⟨0xffb00093, .Rv64, rfl⟩, rfl, rfl⟩

theorem ready_of_decoded (i : Instruction) (h : Decoded i) (as : List Arg)
    (ha : args i.opc = some as) : ∀ a ∈ as, ready i a := by
  obtain ⟨r1, r2, r3⟩ := decoded_regs i h
  have hx := C17_reported i h
  have x1 := hx .rd
  have x2 := hx .rs1
  have x3 := hx .rs2
  have x4 := hx .imm
  clear hx h
  have n1 : i.rd.isSome = true → isNamed i.rd := by
    intro h
    obtain ⟨n, h⟩ := Option.isSome_iff_exists.1 h
    exact ⟨n, h, r1 n h⟩
  have n2 : i.rs1.isSome = true → isNamed i.rs1 := by
    intro h
    obtain ⟨n, h⟩ := Option.isSome_iff_exists.1 h
    exact ⟨n, h, r2 n h⟩
  have n3 : i.rs2.isSome = true → (∀ o, i.opc ≠ .Zicsr o) → isNamed i.rs2 := by
    intro h hz
    obtain ⟨n, h⟩ := Option.isSome_iff_exists.1 h
    exact ⟨n, h, r3 n h hz⟩
  clear r1 r2 r3
  simp only [hasOperand] at x1 x2 x3 x4
  revert n3 x1 x2 x3 x4 ha
  generalize i.opc = op
  rcases op with o | o | o | o | o | o | o | o | o | o
  all_goals cases o
  all_goals intro ha x1 x2 x3 x4 n3
  all_goals simp only [args, Option.some.injEq, reduceCtorEq] at ha
  all_goals subst ha
  all_goals simp [reported, shown, args, Arg.shows, hidden] at x1 x2 x3 x4 n3
  all_goals simp_all [ready]

/-! ## Displaying -/

/-- C49 (and C32).  Printing a decoded instruction panics exactly for four opcodes. -/
theorem C49_display_panics_iff (i : Instruction) (h : Decoded i) :
    i.fmt = .panic ↔ i.opc = .Zicfiss .SSPOPCHK ∨ i.opc = .Zicfiss .C_SSPUSH ∨
      i.opc = .Zicfiss .C_SSPOPCHK ∨ i.opc = .Priv .SFENCE_VMA := by
  have hf := decoded_format i h
  have hnone : args i.opc = none ↔ i.opc = .Zicfiss .SSPOPCHK ∨ i.opc = .Zicfiss .C_SSPUSH ∨
      i.opc = .Zicfiss .C_SSPOPCHK ∨ i.opc = .Priv .SFENCE_VMA := by
    rcases i.opc with o | o | o | o | o | o | o | o | o | o
    all_goals cases o
    all_goals simp [args]
  rw [← hnone]
  constructor
  · intro hp
    cases ha : args i.opc with
    | none => rfl
    | some as =>
        exfalso
        rcases fmt_spec i with ⟨as', -, -, h3⟩ | ⟨h3, -⟩
        · rw [hp] at h3; cases h3
        · rw [hf] at h3
          obtain ⟨a, hm, hn⟩ := h3 as (formatArgs_of_args _ _ ha)
          exact hn (ready_of_decoded i h as ha a hm)
  · intro hn
    rcases fmt_spec i with ⟨as', h1, h2, -⟩ | ⟨-, h3⟩
    · exfalso
      rw [hf] at h1
      rcases hnone.1 hn with ho | ho | ho | ho
      · rw [ho] at h1
        simp only [OpcodeKind.getFormat, ZicfissOpcode.getFormat, formatArgs, Option.some.injEq] at h1
        subst h1
        obtain ⟨n, e, -⟩ := h2 .rs2 (by simp)
        have := C17_reported i h .rs2
        simp [hasOperand, e, ho, reported] at this
      · rw [ho] at h1; simp [OpcodeKind.getFormat, ZicfissOpcode.getFormat, formatArgs] at h1
      · rw [ho] at h1; simp [OpcodeKind.getFormat, ZicfissOpcode.getFormat, formatArgs] at h1
      · rw [ho] at h1
        simp only [OpcodeKind.getFormat, PrivOpcode.getFormat, formatArgs, Option.some.injEq] at h1
        subst h1
        obtain ⟨n, e, -⟩ := h2 .rd (by simp)
        have := C17_reported i h .rd
        simp [hasOperand, e, ho, reported] at this
    · exact h3

/-- C32 is false of the code. -/
theorem C32_refuted : ¬ ∀ i, Decoded i → i.fmt ≠ .panic :=
  fun h => h _ (.inl ⟨0xcdc0c073, .Rv64, rfl⟩) rfl

/-- C32 for every opcode but four.  Missing: `sspopchk`, `c.sspush`, `c.sspopchk` and `sfence.vma`, for
which it is false (C49). -/
theorem C32_no_panic_partial (i : Instruction) (h : Decoded i)
    (h1 : i.opc ≠ .Zicfiss .SSPOPCHK) (h2 : i.opc ≠ .Zicfiss .C_SSPUSH)
    (h3 : i.opc ≠ .Zicfiss .C_SSPOPCHK) (h4 : i.opc ≠ .Priv .SFENCE_VMA) : i.fmt ≠ .panic := by
  rw [Ne, C49_display_panics_iff i h]
  simp [h1, h2, h3, h4]

/-- Each of the four opcodes is decoded from some input and then cannot be printed. -/
theorem C49_display_panics_witnesses :
    (∃ i, Decoded i ∧ i.opc = .Zicfiss .SSPOPCHK ∧ i.fmt = .panic) ∧
    (∃ i, Decoded i ∧ i.opc = .Zicfiss .C_SSPUSH ∧ i.fmt = .panic) ∧
    (∃ i, Decoded i ∧ i.opc = .Zicfiss .C_SSPOPCHK ∧ i.fmt = .panic) ∧
    (∃ i, Decoded i ∧ i.opc = .Priv .SFENCE_VMA ∧ i.fmt = .panic) :=
  ⟨⟨_, .inl ⟨0xcdc0c073, .Rv64, rfl⟩, rfl, rfl⟩, ⟨_, .inr ⟨0x6081, .Rv64, rfl⟩, rfl, rfl⟩,
    ⟨_, .inr ⟨0x6281, .Rv32, rfl⟩, rfl, rfl⟩, ⟨_, .inl ⟨0x12000073, .Rv32, rfl⟩, rfl, rfl⟩⟩

/-- C33.  The text printed for a decoded instruction is the one described by the specification, which is
unique. -/
theorem C33_text (i : Instruction) (h : Decoded i) (s : String) : i.fmt = .ok s ↔ isText i s := by
  have hf := decoded_format i h
  have key : ∀ as, args i.opc = some as →
      i.fmt = .ok (line (printedName i.opc) (as.map (argStr i))) ∧
        argTexts i as (as.map (argStr i)) := by
    intro as ha
    have hr := ready_of_decoded i h as ha
    refine ⟨?_, argTexts_map i as hr⟩
    rcases fmt_spec i with ⟨as', h1, -, h3⟩ | ⟨h3, -⟩
    · rw [hf, formatArgs_of_args _ _ ha] at h1
      injection h1 with h1
      subst h1
      rw [h3, toStr_printedName]
    · rw [hf] at h3
      obtain ⟨a, hm, hn⟩ := h3 as (formatArgs_of_args _ _ ha)
      exact absurd (hr a hm) hn
  constructor
  · intro hs
    cases ha : args i.opc with
    | none =>
        exfalso
        have hp : i.fmt = .panic := by
          rw [C49_display_panics_iff i h]
          revert ha
          rcases i.opc with o | o | o | o | o | o | o | o | o | o
          all_goals cases o
          all_goals simp [args]
        rw [hp] at hs; cases hs
    | some as =>
        obtain ⟨k1, k2⟩ := key as ha
        rw [hs] at k1
        injection k1 with k1
        exact ⟨as, _, ha, k2, k1⟩
  · rintro ⟨as, ss, ha, ht, rfl⟩
    obtain ⟨k1, k2⟩ := key as ha
    rw [k1, argTexts_unique k2 ht]

/-- C33.  Every decoded instruction with a printable opcode has a text. -/
theorem C33_text_exists (i : Instruction) (h : Decoded i) (hp : args i.opc ≠ none) :
    ∃ s, i.fmt = .ok s ∧ isText i s := by
  cases hm : i.fmt with
  | ok s => exact ⟨s, rfl, (C33_text i h s).1 hm⟩
  | err e =>
      rcases fmt_spec i with ⟨_, -, -, h3⟩ | ⟨-, h3⟩ <;> (rw [hm] at h3; cases h3)
  | panic =>
      exfalso
      apply hp
      rcases (C49_display_panics_iff i h).1 hm with e | e | e | e <;> rw [e] <;> rfl

example : ∃ i, Decoded i ∧ args i.opc ≠ none ∧ i.fmt = .ok "addi ra, zero, -5" :=
  ⟨_, .inl ⟨0xffb00093, .Rv64, rfl⟩, by decide, rfl⟩
example : ∃ i, Decoded i ∧ args i.opc ≠ none ∧ i.fmt = .ok "csrrw a0, 0x305, s0" :=
  ⟨_, .inl ⟨0x30541573, .Rv64, rfl⟩, by decide, rfl⟩
example : ∃ i, Decoded i ∧ args i.opc ≠ none ∧ i.fmt = .ok "jal zero, 0xfffffffe" :=
  ⟨_, .inl ⟨0xfffff06f, .Rv64, rfl⟩, by decide, rfl⟩

/-- C33.  Stores and branches print the first source register where the manual's syntax has the second:
`sw ra, 8(sp)` appears as `sw sp, 8(ra)`. -/
theorem C33_stores_swapped : ∃ i, U32.decode 0x00112423 .Rv64 = .ok i ∧ i.opc = .BaseI .SW ∧
    i.rs1 = some 2 ∧ i.rs2 = some 1 ∧ i.fmt = .ok "sw sp, 8(ra)" := ⟨_, rfl, rfl, rfl, rfl, rfl⟩

/-- C48.  Printing an arbitrary instruction value (its fields are public): the text exists exactly when
every operand that its format prints is there and every register it names is below 32, and is then the
one described by the specification; otherwise printing panics. -/
theorem C48_display_any (i : Instruction) (s : String) :
    i.fmt = .ok s ↔ ∃ as ss, formatArgs i.instFormat i.opc = some as ∧ argTexts i as ss ∧
      s = line (printedName i.opc) ss := by
  constructor
  · intro hs
    rcases fmt_spec i with ⟨as, h1, h2, h3⟩ | ⟨-, h3⟩
    · rw [hs, toStr_printedName] at h3
      injection h3 with h3
      exact ⟨as, _, h1, argTexts_map i as h2, h3⟩
    · rw [hs] at h3; cases h3
  · rintro ⟨as, ss, ha, ht, rfl⟩
    rcases fmt_spec i with ⟨as', h1, h2, h3⟩ | ⟨h1, -⟩
    · rw [ha] at h1
      injection h1 with h1
      subst h1
      rw [h3, toStr_printedName, argTexts_unique (argTexts_map i as h2) ht]
    · obtain ⟨a, hm, hn⟩ := h1 as ha
      exact absurd (ready_of_texts i as ss ht a hm) hn

/-- C48.  Printing never returns an error, and it panics exactly when there is no text. -/
theorem C48_display_any_panics (i : Instruction) :
    (∀ e, i.fmt ≠ .err e) ∧ (i.fmt = .panic ↔ ¬ ∃ as ss, formatArgs i.instFormat i.opc = some as ∧
      argTexts i as ss) := by
  constructor
  · intro e he
    rcases fmt_spec i with ⟨_, -, -, h3⟩ | ⟨-, h3⟩ <;> (rw [he] at h3; cases h3)
  · constructor
    · rintro hp ⟨as, ss, ha, ht⟩
      rw [(C48_display_any i _).2 ⟨as, ss, ha, ht, rfl⟩] at hp
      cases hp
    · intro hn
      rcases fmt_spec i with ⟨as, h1, h2, -⟩ | ⟨-, h3⟩
      · exact absurd ⟨as, _, h1, argTexts_map i as h2⟩ hn
      · exact h3

example : ∃ i : Instruction, ¬ Decoded i ∧ i.fmt = .ok "sfence.vma zero, ra, sp" := by
  refine ⟨⟨.Priv .SFENCE_VMA, some 0, some 1, some 2, none, .RFormat, false⟩, fun h => ?_, rfl⟩
  have := C17_reported _ h .rd
  simp [hasOperand, reported] at this
example : (⟨.BaseI .ADD, some 1, some 32, some 2, none, .RFormat, false⟩ : Instruction).fmt = .panic :=
  rfl

/-! ## Names -/

/-- C34.  Distinct opcodes have distinct names. -/
theorem C34_distinct (op op' : OpcodeKind) (h : op.toStr = op'.toStr) : op = op' := toStr_inj op op' h

/-- C34.  No name contains a space. -/
theorem C34_no_space (op : OpcodeKind) : ' ' ∉ op.toStr.toList :=
  fun h => toStr_no_space op ' ' h rfl

/-- C34 is false: `mulhsu` and `fence` have other names in the manual. -/
theorem C34_refuted : ¬ ∀ op : OpcodeKind, (∀ o, op ≠ .C o) → op.toStr = manualName op := by
  intro h
  have := h (.M .MULHSU) (by simp)
  revert this
  decide

/-- C34, the names: for every opcode but two they are the manual's, compressed ones with a capital `C`.
Missing: `mulhsu` and `fence`, for which it is false. -/
theorem C34_manual_partial (op : OpcodeKind) (h1 : op ≠ .M .MULHSU) (h2 : op ≠ .Zifencei .FENCE) :
    ((∀ o, op ≠ .C o) → op.toStr = manualName op) ∧
      ((∃ o, op = .C o) → ∃ rest, (manualName op).toList = 'c' :: '.' :: rest ∧
        op.toStr.toList = 'C' :: '.' :: rest) := by
  rcases op with o | o | o | o | o | o | o | o | o | o
  case C =>
    refine ⟨fun h => absurd rfl (h o), fun _ => ?_⟩
    cases o <;> exact ⟨_, rfl, rfl⟩
  all_goals refine ⟨fun _ => ?_, by simp⟩
  all_goals cases o
  all_goals first
    | rfl
    | exact absurd rfl h1
    | exact absurd rfl h2

/-- C34.  What the two others print. -/
theorem C34_deviations : (OpcodeKind.M .MULHSU).toStr = "mulhsu," ∧
    (OpcodeKind.Zifencei .FENCE).toStr = "fence.i" := ⟨rfl, rfl⟩

/-- C35.  Register names are the ABI names. -/
theorem C35_abi_names (n : Nat) (h : n < 32) : reg2str n = .ok (abiName n) := reg2str_ok n h

/-- C35.  Distinct registers have distinct names. -/
theorem C35_names_distinct (n m : Nat) (s : String) (h : reg2str n = .ok s) (h' : reg2str m = .ok s) :
    n = m := by
  have hn : n < 32 := by
    refine Classical.byContradiction fun hn => ?_
    rw [reg2str_panic n (by omega)] at h; cases h
  have hm : m < 32 := by
    refine Classical.byContradiction fun hm => ?_
    rw [reg2str_panic m (by omega)] at h'; cases h'
  rw [reg2str_ok n hn] at h
  rw [reg2str_ok m hm, ← h] at h'
  injection h' with h'
  exact (abiName_inj m n hm hn h').symm

/-- C35.  Naming panics exactly on numbers that are not registers, and the register operands of a decoded
instruction always have names (the second source of a CSR instruction is not a register). -/
theorem C35_names_total (i : Instruction) (h : Decoded i) :
    (∀ n, reg2str n = .panic ↔ 32 ≤ n) ∧
    (∀ n, i.rd = some n → ∃ s, reg2str n = .ok s) ∧ (∀ n, i.rs1 = some n → ∃ s, reg2str n = .ok s) ∧
    (∀ n, i.rs2 = some n → (∀ o, i.opc ≠ .Zicsr o) → ∃ s, reg2str n = .ok s) := by
  obtain ⟨h1, h2, h3⟩ := decoded_regs i h
  refine ⟨fun n => ⟨fun hp => ?_, reg2str_panic n⟩, fun n hn => ⟨_, reg2str_ok n (h1 n hn)⟩,
    fun n hn => ⟨_, reg2str_ok n (h2 n hn)⟩, fun n hn ho => ⟨_, reg2str_ok n (h3 n hn ho)⟩⟩
  refine Classical.byContradiction fun hn => ?_
  rw [reg2str_ok n (by omega)] at hp; cases hp

/-! ## Reading the text -/

theorem decoded_imm (i : Instruction) (h : Decoded i) : immI32 i := by
  intro z hz
  rcases h with ⟨w, isa, h⟩ | ⟨w, isa, h⟩
  · obtain ⟨r, hr, h3⟩ := C16_immediate_range32 w isa i z h hz
    revert h3
    rcases r with ⟨f, a, b, c⟩
    cases f <;> cases isa <;> intro h3 <;>
      first
        | exact False.elim h3
        | (simp only [immRange32] at h3; omega)
  · have h3 := C16_immediate_range16 w isa i z h hz
    clear h hz
    revert h3
    rcases i.opc with o | o | o | o | o | o | o | o | o | o
    all_goals cases o
    all_goals intro h3
    all_goals first
      | exact False.elim h3
      | (simp only [immRange16] at h3; omega)

/-- C36.  Two decoded instructions with the same text have the same opcode and agree on every operand that
is shown. -/
theorem C36_text_determines (i j : Instruction) (hi : Decoded i) (hj : Decoded j) (s : String)
    (h : i.fmt = .ok s) (h' : j.fmt = .ok s) :
    i.opc = j.opc ∧ ∀ x ∈ shown i.opc, sameOperand i j x :=
  isText_inj (decoded_imm i hi) (decoded_imm j hj) ((C33_text i hi s).1 h) ((C33_text j hj s).1 h')

theorem decoded_width (i j : Instruction) (hi : Decoded i) (hj : Decoded j) (h : i.opc = j.opc) :
    i.isCompressed = j.isCompressed := by
  have key : ∀ (w : BitVec 32) (v : BitVec 16) (isa isa' : Isa) (i j : Instruction),
      U32.decode w isa = .ok i → U16.decode v isa' = .ok j → i.opc ≠ j.opc := by
    intro w v isa isa' i j h h' he
    obtain ⟨-, -, h1, h2, h3, -⟩ := C27_metadata32 w isa i h
    obtain ⟨-, -, h4, -⟩ := C27_metadata16 v isa' j h'
    rw [he] at h1 h2 h3
    rcases h4 with ⟨o, h4⟩ | h4 | h4
    · exact h1 o h4
    · exact h2 h4
    · exact h3 h4
  rcases hi with ⟨w, isa, hi⟩ | ⟨w, isa, hi⟩ <;> rcases hj with ⟨v, isa', hj⟩ | ⟨v, isa', hj⟩
  · rw [(C27_metadata32 w isa i hi).2.1, (C27_metadata32 v isa' j hj).2.1]
  · exact absurd h (key _ _ _ _ _ _ hi hj)
  · exact absurd h.symm (key _ _ _ _ _ _ hj hi)
  · rw [(C27_metadata16 w isa i hi).2.1, (C27_metadata16 v isa' j hj).2.1]

theorem operand_ext (i j : Instruction) (hi : Decoded i) (hj : Decoded j) (h : i.opc = j.opc)
    (hx : ∀ x ∈ reported i.opc, sameOperand i j x) : i = j := by
  have hall : ∀ x, sameOperand i j x := by
    intro x
    by_cases hm : x ∈ reported i.opc
    · exact hx x hm
    · have h1 : hasOperand i x = false := by
        rw [← Bool.not_eq_true, C17_reported i hi x]; exact hm
      have h2 : hasOperand j x = false := by
        rw [← Bool.not_eq_true, C17_reported j hj x, ← h]; exact hm
      cases x <;> simp only [hasOperand, Option.isSome_eq_false_iff, Option.isNone_iff_eq_none] at h1 h2 <;>
        simp only [sameOperand, h1, h2]
  have hf : i.instFormat = j.instFormat := by rw [decoded_format i hi, decoded_format j hj, h]
  have hc := decoded_width i j hi hj h
  have e1 := hall .rd
  have e2 := hall .rs1
  have e3 := hall .rs2
  have e4 := hall .imm
  clear hall hx hi hj
  rcases i with ⟨a, b, c, d, e, f, g⟩
  rcases j with ⟨a', b', c', d', e', f', g'⟩
  simp only [sameOperand] at e1 e2 e3 e4 hf hc h
  rw [h, e1, e2, e3, e4, hf, hc]

/-- The hidden operand of a compressed instruction that loses nothing is a function of the rest. -/
theorem hidden_determined (i : Instruction) (hi : Decoded i) :
    (i.opc ∈ [.C .ADDI, .C .ADDIW, .C .ADDI16SP, .C .SLLI, .C .SUB, .C .XOR, .C .OR, .C .AND, .C .SUBW,
      .C .ADDW, .C .ADD, .C .SRLI, .C .SRAI, .C .ANDI] → i.rs1 = i.rd) ∧
    (i.opc = .C .JR ∨ i.opc = .C .JALR → i.rs2 = some 0) := by
  rcases hi with ⟨w, isa, h⟩ | ⟨h, isa, hd⟩
  · have := (C27_metadata32 w isa i h).2.2.1
    constructor
    · intro hm
      exfalso
      simp only [List.mem_cons, List.not_mem_nil, or_false] at hm
      rcases hm with e | e | e | e | e | e | e | e | e | e | e | e | e | e <;> exact this _ e
    · rintro (e | e) <;> exact absurd e (this _)
  · obtain ⟨e1, e2, e3⟩ := C12_registers16 h isa i hd
    obtain ⟨ha, -⟩ := (decode16_ok_iff h isa i).1 hd
    constructor
    · intro hm
      rw [e1, e2]
      simp only [List.mem_cons, List.not_mem_nil, or_false] at hm
      rcases hm with e | e | e | e | e | e | e | e | e | e | e | e | e | e <;> rw [e] <;> rfl
    · rw [e3]
      rintro (e | e)
      · rw [e] at ha ⊢
        show some (fld h.toNat 6 2) = _
        rw [ha.2.2]
      · rw [e] at ha ⊢
        show some (fld h.toNat 6 2) = _
        rw [ha.2.2.2]

/-- C36.  Unless the opcode is one of those that hide an operand, the text determines the whole
instruction value. -/
theorem C36_lossless (i j : Instruction) (hi : Decoded i) (hj : Decoded j) (s : String)
    (h : i.fmt = .ok s) (h' : j.fmt = .ok s) (hl : lossy i.opc = false) : i = j := by
  obtain ⟨ho, hs⟩ := C36_text_determines i j hi hj s h h'
  refine operand_ext i j hi hj ho fun x hx => ?_
  obtain ⟨d1, d2⟩ := hidden_determined i hi
  obtain ⟨d1', d2'⟩ := hidden_determined j hj
  rw [← ho] at d1' d2'
  by_cases hm : x ∈ shown i.opc
  · exact hs x hm
  · have hne : args i.opc ≠ none := by
      obtain ⟨as, ss, ha, -⟩ := (C33_text i hi s).1 h
      rw [ha]; simp
    clear h h' hi hj ho
    revert hs d1 d2 d1' d2' hl hx hm hne
    generalize i.opc = op
    rcases op with o | o | o | o | o | o | o | o | o | o
    all_goals cases o
    all_goals intro hl hs hx d1 d2 d1' d2' hm hne
    all_goals first
      | (exfalso; exact hne rfl; done)
      | (exfalso; simp [lossy] at hl; done)
      | (exfalso; apply hm; simpa [reported, hidden] using hx; done)
      | skip
    all_goals
      simp only [shown, args, Option.getD_some, Arg.shows, List.flatMap_cons, List.flatMap_nil,
        List.mem_append, List.mem_cons, List.not_mem_nil, or_false, forall_eq_or_imp, forall_eq,
        sameOperand, reported, hidden, List.append_nil, List.cons_append, List.nil_append,
        true_or, or_true, forall_const, reduceCtorEq, false_or, or_self, false_implies, true_implies]
        at hs hx hm d1 d2 d1' d2'
      cases x <;> simp_all [sameOperand]

example : ∃ i, Decoded i ∧ lossy i.opc = false ∧ i.fmt = .ok "C.add a0, a0, a1" :=
  ⟨_, .inr ⟨0x952e, .Rv64, rfl⟩, rfl, rfl⟩

/-- C36.  The listed opcodes do lose information: for each there are two different instructions with the
same text. -/
theorem C36_lossy (op : OpcodeKind) (h : lossy op = true) :
    ∃ i j s, Decoded i ∧ Decoded j ∧ i ≠ j ∧ i.opc = op ∧ i.fmt = .ok s ∧ j.fmt = .ok s := by
  rcases op with o | o | o | o | o | o | o | o | o | o
  all_goals cases o
  all_goals first
    | (exfalso; simp [lossy] at h; done)
    | skip
  case BaseI.SLLI => exact ⟨_, _, _, .inl ⟨0x1013, .Rv64, rfl⟩, .inl ⟨0x101013, .Rv64, rfl⟩, by decide, rfl, rfl, rfl⟩
  case BaseI.SLLIW => exact ⟨_, _, _, .inl ⟨0x101b, .Rv64, rfl⟩, .inl ⟨0x10101b, .Rv64, rfl⟩, by decide, rfl, rfl, rfl⟩
  case BaseI.SRLI => exact ⟨_, _, _, .inl ⟨0x5013, .Rv64, rfl⟩, .inl ⟨0x105013, .Rv64, rfl⟩, by decide, rfl, rfl, rfl⟩
  case BaseI.SRLIW => exact ⟨_, _, _, .inl ⟨0x501b, .Rv64, rfl⟩, .inl ⟨0x10501b, .Rv64, rfl⟩, by decide, rfl, rfl, rfl⟩
  case BaseI.SRAI => exact ⟨_, _, _, .inl ⟨0x40005013, .Rv64, rfl⟩, .inl ⟨0x40105013, .Rv64, rfl⟩, by decide, rfl, rfl, rfl⟩
  case BaseI.SRAIW => exact ⟨_, _, _, .inl ⟨0x4000501b, .Rv64, rfl⟩, .inl ⟨0x4010501b, .Rv64, rfl⟩, by decide, rfl, rfl, rfl⟩
  case A.SC_W => exact ⟨_, _, _, .inl ⟨0x1800202f, .Rv64, rfl⟩, .inl ⟨0x1a00202f, .Rv64, rfl⟩, by decide, rfl, rfl, rfl⟩
  case A.SC_D => exact ⟨_, _, _, .inl ⟨0x1800302f, .Rv64, rfl⟩, .inl ⟨0x1a00302f, .Rv64, rfl⟩, by decide, rfl, rfl, rfl⟩
  case A.AMOSWAP_W => exact ⟨_, _, _, .inl ⟨0x800202f, .Rv64, rfl⟩, .inl ⟨0xa00202f, .Rv64, rfl⟩, by decide, rfl, rfl, rfl⟩
  case A.AMOSWAP_D => exact ⟨_, _, _, .inl ⟨0x800302f, .Rv64, rfl⟩, .inl ⟨0xa00302f, .Rv64, rfl⟩, by decide, rfl, rfl, rfl⟩
  case A.AMOADD_W => exact ⟨_, _, _, .inl ⟨0x202f, .Rv64, rfl⟩, .inl ⟨0x200202f, .Rv64, rfl⟩, by decide, rfl, rfl, rfl⟩
  case A.AMOADD_D => exact ⟨_, _, _, .inl ⟨0x302f, .Rv64, rfl⟩, .inl ⟨0x200302f, .Rv64, rfl⟩, by decide, rfl, rfl, rfl⟩
  case A.AMOXOR_W => exact ⟨_, _, _, .inl ⟨0x2000202f, .Rv64, rfl⟩, .inl ⟨0x2200202f, .Rv64, rfl⟩, by decide, rfl, rfl, rfl⟩
  case A.AMOXOR_D => exact ⟨_, _, _, .inl ⟨0x2000302f, .Rv64, rfl⟩, .inl ⟨0x2200302f, .Rv64, rfl⟩, by decide, rfl, rfl, rfl⟩
  case A.AMOAND_W => exact ⟨_, _, _, .inl ⟨0x6000202f, .Rv64, rfl⟩, .inl ⟨0x6200202f, .Rv64, rfl⟩, by decide, rfl, rfl, rfl⟩
  case A.AMOAND_D => exact ⟨_, _, _, .inl ⟨0x6000302f, .Rv64, rfl⟩, .inl ⟨0x6200302f, .Rv64, rfl⟩, by decide, rfl, rfl, rfl⟩
  case A.AMOOR_W => exact ⟨_, _, _, .inl ⟨0x4000202f, .Rv64, rfl⟩, .inl ⟨0x4200202f, .Rv64, rfl⟩, by decide, rfl, rfl, rfl⟩
  case A.AMOOR_D => exact ⟨_, _, _, .inl ⟨0x4000302f, .Rv64, rfl⟩, .inl ⟨0x4200302f, .Rv64, rfl⟩, by decide, rfl, rfl, rfl⟩
  case A.AMOMIN_W => exact ⟨_, _, _, .inl ⟨0x8000202f, .Rv64, rfl⟩, .inl ⟨0x8200202f, .Rv64, rfl⟩, by decide, rfl, rfl, rfl⟩
  case A.AMOMIN_D => exact ⟨_, _, _, .inl ⟨0x8000302f, .Rv64, rfl⟩, .inl ⟨0x8200302f, .Rv64, rfl⟩, by decide, rfl, rfl, rfl⟩
  case A.AMOMAX_W => exact ⟨_, _, _, .inl ⟨0xa000202f, .Rv64, rfl⟩, .inl ⟨0xa200202f, .Rv64, rfl⟩, by decide, rfl, rfl, rfl⟩
  case A.AMOMAX_D => exact ⟨_, _, _, .inl ⟨0xa000302f, .Rv64, rfl⟩, .inl ⟨0xa200302f, .Rv64, rfl⟩, by decide, rfl, rfl, rfl⟩
  case A.AMOMINU_W => exact ⟨_, _, _, .inl ⟨0xc000202f, .Rv64, rfl⟩, .inl ⟨0xc200202f, .Rv64, rfl⟩, by decide, rfl, rfl, rfl⟩
  case A.AMOMINU_D => exact ⟨_, _, _, .inl ⟨0xc000302f, .Rv64, rfl⟩, .inl ⟨0xc200302f, .Rv64, rfl⟩, by decide, rfl, rfl, rfl⟩
  case A.AMOMAXU_W => exact ⟨_, _, _, .inl ⟨0xe000202f, .Rv64, rfl⟩, .inl ⟨0xe200202f, .Rv64, rfl⟩, by decide, rfl, rfl, rfl⟩
  case A.AMOMAXU_D => exact ⟨_, _, _, .inl ⟨0xe000302f, .Rv64, rfl⟩, .inl ⟨0xe200302f, .Rv64, rfl⟩, by decide, rfl, rfl, rfl⟩
  case A.LR_D => exact ⟨_, _, _, .inl ⟨0x1000302f, .Rv64, rfl⟩, .inl ⟨0x1200302f, .Rv64, rfl⟩, by decide, rfl, rfl, rfl⟩
  case C.NOP => exact ⟨_, _, _, .inr ⟨0x1, .Rv64, rfl⟩, .inr ⟨0x5, .Rv64, rfl⟩, by decide, rfl, rfl, rfl⟩
  case Zifencei.FENCE => exact ⟨_, _, _, .inl ⟨0xf, .Rv64, rfl⟩, .inl ⟨0xff0000f, .Rv64, rfl⟩, by decide, rfl, rfl, rfl⟩
  case Zicfiss.SSPUSH => exact ⟨_, _, _, .inl ⟨0xce104073, .Rv64, rfl⟩, .inl ⟨0xce504073, .Rv64, rfl⟩, by decide, rfl, rfl, rfl⟩

end Raki
