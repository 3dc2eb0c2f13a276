import Verif.Props.Accept
import Verif.Props.Operands
import Verif.Props.Errors
import Verif.Props.Parsers
import Verif.Props.Display
import Verif.Props.DebugPretty
import Verif.Props.Flags
import Verif.Props.Helpers
/-!
# The properties leave no freedom

Whatever has the properties below computes exactly what this crate computes, for every function of the
interface and every input.  So a program that differs from this one on a single input breaks one of them.
-/

namespace Raki

open Spec

/-- Functions with the signatures of the crate's. -/
structure Api where
  decode32 : BitVec 32 → Isa → RustM Instruction
  decode16 : BitVec 16 → Isa → RustM Instruction
  parseOpcode32 : BitVec 32 → Isa → RustM OpcodeKind
  parseOpcode16 : BitVec 16 → Isa → RustM OpcodeKind
  parseRd32 : BitVec 32 → OpcodeKind → RustM (Option Nat)
  parseRs132 : BitVec 32 → OpcodeKind → RustM (Option Nat)
  parseRs232 : BitVec 32 → OpcodeKind → RustM (Option Nat)
  parseImm32 : BitVec 32 → OpcodeKind → Isa → RustM (Option Int)
  parseRd16 : BitVec 16 → OpcodeKind → RustM (Option Nat)
  parseRs116 : BitVec 16 → OpcodeKind → RustM (Option Nat)
  parseRs216 : BitVec 16 → OpcodeKind → RustM (Option Nat)
  parseImm16 : BitVec 16 → OpcodeKind → Isa → RustM (Option Int)
  tryFrom : Nat → RustM Instruction
  format : OpcodeKind → InstFormat
  name : OpcodeKind → String
  display : Instruction → RustM String
  debug : Instruction → String
  pretty : Instruction → String
  debugWith : Flags → Instruction → String
  eq : Instruction → Instruction → Bool
  slice32 : BitVec 32 → Nat → Nat → RustM (BitVec 32)
  slice16 : BitVec 16 → Nat → Nat → RustM (BitVec 16)
  set32 : BitVec 32 → List Nat → RustM (BitVec 32)
  set16 : BitVec 16 → List Nat → RustM (BitVec 32)
  signed : Int → Nat → RustM Int

/-- The functions of this crate. -/
def api : Api where
  decode32 := U32.decode
  decode16 := U16.decode
  parseOpcode32 := U32.parse_opcode
  parseOpcode16 := U16.parse_opcode
  parseRd32 := U32.parse_rd
  parseRs132 := U32.parse_rs1
  parseRs232 := U32.parse_rs2
  parseImm32 := U32.parse_imm
  parseRd16 := U16.parse_rd
  parseRs116 := U16.parse_rs1
  parseRs216 := U16.parse_rs2
  parseImm16 := U16.parse_imm
  tryFrom := try_from
  format := OpcodeKind.getFormat
  name := OpcodeKind.toStr
  display := Instruction.fmt
  debug := Instruction.debug
  pretty := Instruction.debugPretty
  debugWith f i := i.debugWith f
  eq := Instruction.eq
  slice32 := U32.slice
  slice16 := U16.slice
  set32 := U32.set
  set16 := U16.set
  signed := to_signed_nbit

/-- A 16-bit opcode: all of C, and the two compressed shadow-stack instructions. -/
def is16 (op : OpcodeKind) : Prop := (∃ o, op = .C o) ∨ op = .Zicfiss .C_SSPUSH ∨ op = .Zicfiss .C_SSPOPCHK

/-- The properties, stated of any functions. -/
structure Meets (A : Api) : Prop where
  /-- C01 -/
  total32 : ∀ w isa, A.decode32 w isa ≠ .panic
  /-- C02 -/
  total16 : ∀ h isa, A.decode16 h isa ≠ .panic
  /-- C07 -/
  accepts32 : ∀ w isa op, (∃ i, A.decode32 w isa = .ok i ∧ i.opc = op) ↔ accepts32 isa w.toNat op
  /-- C10 -/
  accepts16 : ∀ h isa op, (∃ i, A.decode16 h isa = .ok i ∧ i.opc = op) ↔ accepts16 isa h.toNat op
  /-- C11, C13, C14, C27 -/
  operands32 : ∀ w isa i r, A.decode32 w isa = .ok i → row32 i.opc = some r →
    i.rd = rd32 w.toNat r.fmt ∧ i.rs1 = rs132 w.toNat r.fmt ∧ i.rs2 = rs232 w.toNat r.fmt ∧
      i.imm = imm32 isa w.toNat r.fmt ∧ i.instFormat = A.format i.opc ∧ i.isCompressed = false
  /-- C12, C15, C27 -/
  operands16 : ∀ h isa i, A.decode16 h isa = .ok i →
    i.rd = rd16 h.toNat i.opc ∧ i.rs1 = rs116 h.toNat i.opc ∧ i.rs2 = rs216 h.toNat i.opc ∧
      i.imm = imm16 h.toNat i.opc ∧ i.instFormat = A.format i.opc ∧ i.isCompressed = true
  /-- C23 -/
  errors32 : ∀ w isa e, A.decode32 w isa = .err e ↔ rejects32 isa w.toNat e
  /-- C24 -/
  errors16 : ∀ h isa e, A.decode16 h isa = .err e ↔ rejects16 isa h.toNat e
  /-- C25 -/
  opcode32_ok : ∀ w isa op, A.parseOpcode32 w isa = .ok op ↔ ∃ i, A.decode32 w isa = .ok i ∧ i.opc = op
  /-- C25 -/
  opcode32_err : ∀ w isa e, A.parseOpcode32 w isa = .err e ↔ A.decode32 w isa = .err e
  /-- C25 -/
  opcode16_ok : ∀ h isa op, A.parseOpcode16 h isa = .ok op ↔ ∃ i, A.decode16 h isa = .ok i ∧ i.opc = op
  /-- C25 -/
  opcode16_err : ∀ h isa e, h ≠ 0 → (A.parseOpcode16 h isa = .err e ↔ A.decode16 h isa = .err e)
  /-- C25 -/
  opcode16_zero : ∀ isa, A.parseOpcode16 0 isa = .err .InvalidOpcode
  /-- C51 -/
  parsers32 : ∀ w op isa r, row32 op = some r →
    A.parseRd32 w op = .ok (rd32 w.toNat r.fmt) ∧ A.parseRs132 w op = .ok (rs132 w.toNat r.fmt) ∧
    A.parseRs232 w op = .ok (rs232 w.toNat r.fmt) ∧ A.parseImm32 w op isa = .ok (imm32 isa w.toNat r.fmt)
  /-- C26 -/
  parsers32_c : ∀ w o isa, A.parseRd32 w (.C o) = .err .Not32BitInst ∧ A.parseRs132 w (.C o) = .err .Not32BitInst ∧
    A.parseRs232 w (.C o) = .err .Not32BitInst ∧ A.parseImm32 w (.C o) isa = .err .Not32BitInst
  /-- C26 -/
  parsers32_ss : ∀ w op isa, op = .Zicfiss .C_SSPUSH ∨ op = .Zicfiss .C_SSPOPCHK →
    A.parseRd32 w op = .panic ∧ A.parseRs132 w op = .panic ∧ A.parseRs232 w op = .panic ∧
    A.parseImm32 w op isa = .panic
  /-- C51 -/
  parsers16 : ∀ h op isa, is16 op →
    A.parseRd16 h op = .ok (rd16 h.toNat op) ∧ A.parseRs116 h op = .ok (rs116 h.toNat op) ∧
    A.parseRs216 h op = .ok (rs216 h.toNat op) ∧ A.parseImm16 h op isa = .ok (imm16 h.toNat op)
  /-- C26 -/
  parsers16_ss : ∀ h o isa, o ≠ .C_SSPUSH → o ≠ .C_SSPOPCHK →
    A.parseRd16 h (.Zicfiss o) = .panic ∧ A.parseRs116 h (.Zicfiss o) = .ok none ∧
    A.parseRs216 h (.Zicfiss o) = .ok none ∧ A.parseImm16 h (.Zicfiss o) isa = .ok none
  /-- C26 -/
  parsers16_other : ∀ h op isa, (∀ o, op ≠ .C o) → (∀ o, op ≠ .Zicfiss o) →
    A.parseRd16 h op = .err .Not16BitInst ∧ A.parseRs116 h op = .err .Not16BitInst ∧
    A.parseRs216 h op = .err .Not16BitInst ∧ A.parseImm16 h op isa = .err .Not16BitInst
  /-- C03 -/
  tryFrom32 : ∀ n, n % 4 = 3 → n < 2 ^ 32 → A.tryFrom n = A.decode32 (BitVec.ofNat 32 n) .Rv64
  /-- C03 -/
  tryFrom16 : ∀ n, n % 4 ≠ 3 → n < 2 ^ 16 → A.tryFrom n = A.decode16 (BitVec.ofNat 16 n) .Rv64
  /-- C43 -/
  tryFrom_panic : ∀ n, A.tryFrom n = .panic ↔ (n % 4 = 3 ∧ 2 ^ 32 ≤ n) ∨ (n % 4 ≠ 3 ∧ 2 ^ 16 ≤ n)
  /-- C27 -/
  format32 : ∀ op r, row32 op = some r → A.format op = instFormat32 op r.fmt
  /-- C27 -/
  format16 : ∀ op, is16 op → A.format op = instFormat16 op
  /-- C34 -/
  name : ∀ op, A.name op = printedName op
  /-- C48 -/
  display : ∀ i s, A.display i = .ok s ↔ ∃ as ss, formatArgs i.instFormat i.opc = some as ∧ argTexts i as ss ∧
    s = line (printedName i.opc) ss
  /-- C48 -/
  display_err : ∀ i e, A.display i ≠ .err e
  /-- C55 -/
  debug : ∀ i s, A.debug i = s ↔ isDebugText i s
  /-- C66 -/
  pretty : ∀ i s, A.pretty i = s ↔ isPrettyText i s
  /-- C71 -/
  debugWith : ∀ f i s, A.debugWith f i = s ↔ isDebugTextWith f i s
  /-- C55 -/
  eq : ∀ i j, A.eq i j = true ↔ i = j
  /-- C59 -/
  slice32 : ∀ w e s, if s ≤ e ∧ s < 32 ∧ e - s + 1 < 32
    then ∃ r, A.slice32 w e s = .ok r ∧ r.toNat = w.toNat / 2 ^ s % 2 ^ (e - s + 1)
    else A.slice32 w e s = .panic
  /-- C59 -/
  slice16 : ∀ w e s, if s ≤ e ∧ s < 16 ∧ e - s + 1 < 16
    then ∃ r, A.slice16 w e s = .ok r ∧ r.toNat = w.toNat / 2 ^ s % 2 ^ (e - s + 1)
    else A.slice16 w e s = .panic
  /-- C59 -/
  set32 : ∀ w mask, if (∀ m ∈ mask, m < 32) ∧ mask.length ≤ 32
    then ∃ r, A.set32 w mask = .ok r ∧ ∀ k, r.toNat / 2 ^ k % 2 = 1 ↔
      ∃ a b, mask = a ++ k :: b ∧ w.toNat / 2 ^ b.length % 2 = 1
    else A.set32 w mask = .panic
  /-- C59 -/
  set16 : ∀ w mask, if (∀ m ∈ mask, m < 32) ∧ mask.length ≤ 32
    then ∃ r, A.set16 w mask = .ok r ∧ ∀ k, r.toNat / 2 ^ k % 2 = 1 ↔
      ∃ a b, mask = a ++ k :: b ∧ w.toNat / 2 ^ b.length % 2 = 1
    else A.set16 w mask = .panic
  /-- C59 -/
  signed : ∀ x n, 1 ≤ n → n ≤ 30 →
    ∃ z, A.signed x n = .ok z ∧ -2 ^ (n - 1) ≤ z ∧ z < 2 ^ (n - 1) ∧ z % 2 ^ n = x % 2 ^ n
  /-- C59 -/
  signed_panic : ∀ x n, n = 0 ∨ 31 ≤ n → A.signed x n = .panic

/-! ## C69: the properties determine the functions -/

theorem row32_or_is16 (op : OpcodeKind) : (∃ r, row32 op = some r) ∨ is16 op := by
  by_cases h : (∀ o, op ≠ .C o) ∧ op ≠ .Zicfiss .C_SSPUSH ∧ op ≠ .Zicfiss .C_SSPOPCHK
  · exact .inl ((C51_opcodes32 op).2 h)
  · refine .inr (Classical.byContradiction fun hn => h ⟨?_, ?_, ?_⟩)
    · exact fun o ho => hn (.inl ⟨o, ho⟩)
    · exact fun ho => hn (.inr (.inl ho))
    · exact fun ho => hn (.inr (.inr ho))

/-- C69.  The crate has the properties. -/
theorem C69_meets : Meets api where
  total32 w isa := decode32_no_panic w isa
  total16 h isa := decode16_no_panic h isa
  accepts32 := C07_accepts32_exact
  accepts16 := C10_accepts16_exact
  operands32 w isa i r hd hr := by
    obtain ⟨r1, h1, hrd, hrs1, hrs2⟩ := C11_registers32 w isa i hd
    obtain ⟨r2, h2, himm⟩ := imm_of_decode32 w isa i hd
    rw [hr] at h1 h2
    cases h1; cases h2
    obtain ⟨hf, hc, -⟩ := C27_metadata32 w isa i hd
    exact ⟨hrd, hrs1, hrs2, himm, hf, hc⟩
  operands16 h isa i hd := by
    obtain ⟨hrd, hrs1, hrs2⟩ := C12_registers16 h isa i hd
    obtain ⟨hf, hc, -⟩ := C27_metadata16 h isa i hd
    exact ⟨hrd, hrs1, hrs2, C15_compressed_immediates h isa i hd, hf, hc⟩
  errors32 := C23_errors32_exact
  errors16 := C24_errors16_exact
  opcode32_ok w isa op := by
    rw [show api.parseOpcode32 w isa = U32.parse_opcode w isa from rfl, parse_opcode32_ok]
    exact (C07_accepts32_exact w isa op).symm
  opcode32_err := C25_decode32_parse_err
  opcode16_ok h isa op := by
    constructor
    · intro hp
      obtain ⟨_, _, _, _, _, _, _, _, hd⟩ := C25_decode16_parse_ok h isa op hp
      exact ⟨_, hd, rfl⟩
    · rintro ⟨i, hd, ho⟩
      have h0 : h.toNat ≠ 0 := by
        intro h0
        have : h = 0 := BitVec.eq_of_toNat_eq h0
        subst this
        cases (C25_decode16_zero isa).2.symm.trans hd
      exact (parse_opcode16_ok h isa op h0).2 ((C10_accepts16_exact h isa op).1 ⟨i, hd, ho⟩)
  opcode16_err h isa e h0 := C25_decode16_parse_err h isa h0 e
  opcode16_zero isa := (C25_decode16_zero isa).1
  parsers32 w op isa r hr := C51_parsers32 w op isa r hr
  parsers32_c w o isa := (C26_parse32 w (.C o) isa).1 o rfl
  parsers32_ss w op isa h := (C26_parse32 w op isa).2.1 h
  parsers16 h op isa ho := C51_parsers16 h op isa ho
  parsers16_ss h o isa h1 h2 := (C26_parse16 h (.Zicfiss o) isa).2.1 o rfl (by
    rintro (h | h) <;> cases h <;> contradiction)
  parsers16_other h op isa h1 h2 := (C26_parse16 h op isa).2.2 h1 h2
  tryFrom32 := C03_try_from_32
  tryFrom16 := C03_try_from_16
  tryFrom_panic := C43_try_from_panics
  format32 op r hr := getFormat32_eq op r hr
  format16 op ho := getFormat16_eq op (by rcases ho with ⟨o, rfl⟩ | rfl | rfl <;> trivial)
  name := toStr_printedName
  display := C48_display_any
  display_err i e := (C48_display_any_panics i).1 e
  debug := C55_debug_text
  pretty := C66_pretty_text
  debugWith := C71_text
  eq := C55_eq_instruction
  slice32 := C59_slice32
  slice16 := C59_slice16
  set32 := C59_set32
  set16 := C59_set16
  signed := C59_to_signed_nbit
  signed_panic := C59_to_signed_nbit_panics

theorem outcome_ext {α : Type} {x y : RustM α} (h : ∀ a, x = .ok a ↔ y = .ok a) (k : ∀ e, x = .err e ↔ y = .err e) :
    x = y := by
  cases x with
  | ok a => exact ((h a).1 rfl).symm
  | err e => exact ((k e).1 rfl).symm
  | panic =>
    cases y with
    | ok a => exact (h a).2 rfl
    | err e => exact (k e).2 rfl
    | panic => rfl

theorem instruction_ext {i j : Instruction} (h1 : i.opc = j.opc) (h2 : i.rd = j.rd) (h3 : i.rs1 = j.rs1)
    (h4 : i.rs2 = j.rs2) (h5 : i.imm = j.imm) (h6 : i.instFormat = j.instFormat)
    (h7 : i.isCompressed = j.isCompressed) : i = j := by
  cases i; cases j; simp_all

theorem same_format {A B : Api} (a : Meets A) (b : Meets B) (op : OpcodeKind) : A.format op = B.format op := by
  rcases row32_or_is16 op with ⟨r, hr⟩ | h
  · rw [a.format32 op r hr, b.format32 op r hr]
  · rw [a.format16 op h, b.format16 op h]

theorem ok_of_ok32 {A B : Api} (a : Meets A) (b : Meets B) {w : BitVec 32} {isa : Isa} {i : Instruction}
    (h : A.decode32 w isa = .ok i) : B.decode32 w isa = .ok i := by
  have hacc := (a.accepts32 w isa i.opc).1 ⟨i, h, rfl⟩
  obtain ⟨j, hj, ho⟩ := (b.accepts32 w isa i.opc).2 hacc
  obtain ⟨r, hr⟩ := accepts32_row _ _ _ hacc
  obtain ⟨a1, a2, a3, a4, a5, a6⟩ := a.operands32 w isa i r h hr
  obtain ⟨b1, b2, b3, b4, b5, b6⟩ := b.operands32 w isa j r hj (by rw [ho, hr])
  rw [hj, instruction_ext ho (b1.trans a1.symm) (b2.trans a2.symm) (b3.trans a3.symm) (b4.trans a4.symm)
    (by rw [a5, b5, ho, same_format a b]) (b6.trans a6.symm)]

theorem ok_of_ok16 {A B : Api} (a : Meets A) (b : Meets B) {w : BitVec 16} {isa : Isa} {i : Instruction}
    (h : A.decode16 w isa = .ok i) : B.decode16 w isa = .ok i := by
  obtain ⟨j, hj, ho⟩ := (b.accepts16 w isa i.opc).2 ((a.accepts16 w isa i.opc).1 ⟨i, h, rfl⟩)
  obtain ⟨a1, a2, a3, a4, a5, a6⟩ := a.operands16 w isa i h
  obtain ⟨b1, b2, b3, b4, b5, b6⟩ := b.operands16 w isa j hj
  rw [ho] at b1 b2 b3 b4 b5
  rw [hj, instruction_ext ho (b1.trans a1.symm) (b2.trans a2.symm) (b3.trans a3.symm) (b4.trans a4.symm)
    (by rw [a5, b5, same_format a b]) (b6.trans a6.symm)]

theorem same_decode32 {A B : Api} (a : Meets A) (b : Meets B) (w : BitVec 32) (isa : Isa) :
    A.decode32 w isa = B.decode32 w isa :=
  outcome_ext (fun _ => ⟨ok_of_ok32 a b, ok_of_ok32 b a⟩)
    (fun e => (a.errors32 w isa e).trans (b.errors32 w isa e).symm)

theorem same_decode16 {A B : Api} (a : Meets A) (b : Meets B) (w : BitVec 16) (isa : Isa) :
    A.decode16 w isa = B.decode16 w isa :=
  outcome_ext (fun _ => ⟨ok_of_ok16 a b, ok_of_ok16 b a⟩)
    (fun e => (a.errors16 w isa e).trans (b.errors16 w isa e).symm)

theorem same_opcode32 {A B : Api} (a : Meets A) (b : Meets B) (w : BitVec 32) (isa : Isa) :
    A.parseOpcode32 w isa = B.parseOpcode32 w isa :=
  outcome_ext (fun op => by rw [a.opcode32_ok, b.opcode32_ok, same_decode32 a b])
    (fun e => by rw [a.opcode32_err, b.opcode32_err, same_decode32 a b])

theorem same_opcode16 {A B : Api} (a : Meets A) (b : Meets B) (w : BitVec 16) (isa : Isa) :
    A.parseOpcode16 w isa = B.parseOpcode16 w isa := by
  by_cases h0 : w = 0
  · rw [h0, a.opcode16_zero, b.opcode16_zero]
  · exact outcome_ext (fun op => by rw [a.opcode16_ok, b.opcode16_ok, same_decode16 a b])
      (fun e => by rw [a.opcode16_err w isa e h0, b.opcode16_err w isa e h0, same_decode16 a b])

theorem same_parsers32 {A B : Api} (a : Meets A) (b : Meets B) (w : BitVec 32) (op : OpcodeKind) (isa : Isa) :
    A.parseRd32 w op = B.parseRd32 w op ∧ A.parseRs132 w op = B.parseRs132 w op ∧
    A.parseRs232 w op = B.parseRs232 w op ∧ A.parseImm32 w op isa = B.parseImm32 w op isa := by
  rcases row32_or_is16 op with ⟨r, hr⟩ | ⟨o, rfl⟩ | h
  · obtain ⟨a1, a2, a3, a4⟩ := a.parsers32 w op isa r hr
    obtain ⟨b1, b2, b3, b4⟩ := b.parsers32 w op isa r hr
    rw [a1, a2, a3, a4, b1, b2, b3, b4]; exact ⟨rfl, rfl, rfl, rfl⟩
  · obtain ⟨a1, a2, a3, a4⟩ := a.parsers32_c w o isa
    obtain ⟨b1, b2, b3, b4⟩ := b.parsers32_c w o isa
    rw [a1, a2, a3, a4, b1, b2, b3, b4]; exact ⟨rfl, rfl, rfl, rfl⟩
  · obtain ⟨a1, a2, a3, a4⟩ := a.parsers32_ss w op isa h
    obtain ⟨b1, b2, b3, b4⟩ := b.parsers32_ss w op isa h
    rw [a1, a2, a3, a4, b1, b2, b3, b4]; exact ⟨rfl, rfl, rfl, rfl⟩

theorem same_parsers16 {A B : Api} (a : Meets A) (b : Meets B) (w : BitVec 16) (op : OpcodeKind) (isa : Isa) :
    A.parseRd16 w op = B.parseRd16 w op ∧ A.parseRs116 w op = B.parseRs116 w op ∧
    A.parseRs216 w op = B.parseRs216 w op ∧ A.parseImm16 w op isa = B.parseImm16 w op isa := by
  by_cases h : is16 op
  · obtain ⟨a1, a2, a3, a4⟩ := a.parsers16 w op isa h
    obtain ⟨b1, b2, b3, b4⟩ := b.parsers16 w op isa h
    rw [a1, a2, a3, a4, b1, b2, b3, b4]; exact ⟨rfl, rfl, rfl, rfl⟩
  · by_cases hz : ∃ o, op = .Zicfiss o
    · obtain ⟨o, rfl⟩ := hz
      have h1 : o ≠ .C_SSPUSH := fun k => h (.inr (.inl (by rw [k])))
      have h2 : o ≠ .C_SSPOPCHK := fun k => h (.inr (.inr (by rw [k])))
      obtain ⟨a1, a2, a3, a4⟩ := a.parsers16_ss w o isa h1 h2
      obtain ⟨b1, b2, b3, b4⟩ := b.parsers16_ss w o isa h1 h2
      rw [a1, a2, a3, a4, b1, b2, b3, b4]; exact ⟨rfl, rfl, rfl, rfl⟩
    · have h1 : ∀ o, op ≠ .C o := fun o k => h (.inl ⟨o, k⟩)
      have h2 : ∀ o, op ≠ .Zicfiss o := fun o k => hz ⟨o, k⟩
      obtain ⟨a1, a2, a3, a4⟩ := a.parsers16_other w op isa h1 h2
      obtain ⟨b1, b2, b3, b4⟩ := b.parsers16_other w op isa h1 h2
      rw [a1, a2, a3, a4, b1, b2, b3, b4]; exact ⟨rfl, rfl, rfl, rfl⟩

theorem same_tryFrom {A B : Api} (a : Meets A) (b : Meets B) (n : Nat) : A.tryFrom n = B.tryFrom n := by
  by_cases h3 : n % 4 = 3
  · by_cases hn : n < 2 ^ 32
    · rw [a.tryFrom32 n h3 hn, b.tryFrom32 n h3 hn, same_decode32 a b]
    · have h : (n % 4 = 3 ∧ 2 ^ 32 ≤ n) ∨ (n % 4 ≠ 3 ∧ 2 ^ 16 ≤ n) := .inl ⟨h3, by omega⟩
      rw [(a.tryFrom_panic n).2 h, (b.tryFrom_panic n).2 h]
  · by_cases hn : n < 2 ^ 16
    · rw [a.tryFrom16 n h3 hn, b.tryFrom16 n h3 hn, same_decode16 a b]
    · have h : (n % 4 = 3 ∧ 2 ^ 32 ≤ n) ∨ (n % 4 ≠ 3 ∧ 2 ^ 16 ≤ n) := .inr ⟨h3, by omega⟩
      rw [(a.tryFrom_panic n).2 h, (b.tryFrom_panic n).2 h]

theorem same_display {A B : Api} (a : Meets A) (b : Meets B) (i : Instruction) : A.display i = B.display i :=
  outcome_ext (fun s => (a.display i s).trans (b.display i s).symm)
    (fun e => iff_of_false (a.display_err i e) (b.display_err i e))

theorem same_slice32 {A B : Api} (a : Meets A) (b : Meets B) (w : BitVec 32) (e s : Nat) :
    A.slice32 w e s = B.slice32 w e s := by
  have ha := a.slice32 w e s
  have hb := b.slice32 w e s
  split at ha
  · rename_i h
    rw [if_pos h] at hb
    obtain ⟨r, hr, h1⟩ := ha
    obtain ⟨q, hq, h2⟩ := hb
    rw [hr, hq, BitVec.eq_of_toNat_eq (h1.trans h2.symm)]
  · rename_i h
    rw [if_neg h] at hb
    rw [ha, hb]

theorem same_slice16 {A B : Api} (a : Meets A) (b : Meets B) (w : BitVec 16) (e s : Nat) :
    A.slice16 w e s = B.slice16 w e s := by
  have ha := a.slice16 w e s
  have hb := b.slice16 w e s
  split at ha
  · rename_i h
    rw [if_pos h] at hb
    obtain ⟨r, hr, h1⟩ := ha
    obtain ⟨q, hq, h2⟩ := hb
    rw [hr, hq, BitVec.eq_of_toNat_eq (h1.trans h2.symm)]
  · rename_i h
    rw [if_neg h] at hb
    rw [ha, hb]

theorem word_of_bits {r q : BitVec 32} (h : ∀ k, r.toNat / 2 ^ k % 2 = 1 ↔ q.toNat / 2 ^ k % 2 = 1) : r = q := by
  apply BitVec.eq_of_toNat_eq
  apply Nat.eq_of_testBit_eq
  intro k
  have := h k
  rw [Nat.testBit_eq_decide_div_mod_eq, Nat.testBit_eq_decide_div_mod_eq]
  exact decide_eq_decide.2 this

theorem same_set {f g : List Nat → RustM (BitVec 32)} {P : List Nat → Nat → Prop}
    (hf : ∀ mask, if (∀ m ∈ mask, m < 32) ∧ mask.length ≤ 32
      then ∃ r, f mask = .ok r ∧ ∀ k, r.toNat / 2 ^ k % 2 = 1 ↔ P mask k else f mask = .panic)
    (hg : ∀ mask, if (∀ m ∈ mask, m < 32) ∧ mask.length ≤ 32
      then ∃ r, g mask = .ok r ∧ ∀ k, r.toNat / 2 ^ k % 2 = 1 ↔ P mask k else g mask = .panic)
    (mask : List Nat) : f mask = g mask := by
  have ha := hf mask
  have hb := hg mask
  split at ha
  · rename_i h
    rw [if_pos h] at hb
    obtain ⟨r, hr, h1⟩ := ha
    obtain ⟨q, hq, h2⟩ := hb
    rw [hr, hq, word_of_bits fun k => (h1 k).trans (h2 k).symm]
  · rename_i h
    rw [if_neg h] at hb
    rw [ha, hb]

theorem same_signed {A B : Api} (a : Meets A) (b : Meets B) (x : Int) (n : Nat) : A.signed x n = B.signed x n := by
  by_cases h : 1 ≤ n ∧ n ≤ 30
  · obtain ⟨y, hy, y1, y2, y3⟩ := a.signed x n h.1 h.2
    obtain ⟨z, hz, z1, z2, z3⟩ := b.signed x n h.1 h.2
    have hp : (2 : Int) ^ n = 2 * 2 ^ (n - 1) := by
      rw [← Int.pow_succ', show n - 1 + 1 = n by omega]
    have hd : (2 : Int) ^ n ∣ y - z := Int.dvd_of_emod_eq_zero (Int.emod_eq_emod_iff_emod_sub_eq_zero.1 (y3.trans z3.symm))
    obtain ⟨c, hc⟩ := hd
    have hpos : (0 : Int) < 2 ^ (n - 1) := Int.pow_pos (by decide)
    have h1 : y - z < 2 ^ n := by omega
    have h2 : -2 ^ n < y - z := by omega
    have : c = 0 := by
      rcases Int.lt_trichotomy c 0 with k | k | k
      · have : (2 : Int) ^ n * c ≤ 2 ^ n * (-1) := Int.mul_le_mul_of_nonneg_left (by omega) (by omega)
        omega
      · exact k
      · have : (2 : Int) ^ n * 1 ≤ 2 ^ n * c := Int.mul_le_mul_of_nonneg_left (by omega) (by omega)
        omega
    rw [this] at hc
    rw [hy, hz, show y = z by omega]
  · rw [a.signed_panic x n (by omega), b.signed_panic x n (by omega)]

/-- C69.  Nothing else has the properties. -/
theorem C69_unique (A : Api) (a : Meets A) : A = api := by
  have b := C69_meets
  have e1 : A.decode32 = api.decode32 := funext fun w => funext fun isa => same_decode32 a b w isa
  have e2 : A.decode16 = api.decode16 := funext fun w => funext fun isa => same_decode16 a b w isa
  have e3 : A.parseOpcode32 = api.parseOpcode32 := funext fun w => funext fun isa => same_opcode32 a b w isa
  have e4 : A.parseOpcode16 = api.parseOpcode16 := funext fun w => funext fun isa => same_opcode16 a b w isa
  have e5 : A.parseRd32 = api.parseRd32 := funext fun w => funext fun op => (same_parsers32 a b w op .Rv32).1
  have e6 : A.parseRs132 = api.parseRs132 := funext fun w => funext fun op => (same_parsers32 a b w op .Rv32).2.1
  have e7 : A.parseRs232 = api.parseRs232 := funext fun w => funext fun op => (same_parsers32 a b w op .Rv32).2.2.1
  have e8 : A.parseImm32 = api.parseImm32 :=
    funext fun w => funext fun op => funext fun isa => (same_parsers32 a b w op isa).2.2.2
  have f5 : A.parseRd16 = api.parseRd16 := funext fun w => funext fun op => (same_parsers16 a b w op .Rv32).1
  have f6 : A.parseRs116 = api.parseRs116 := funext fun w => funext fun op => (same_parsers16 a b w op .Rv32).2.1
  have f7 : A.parseRs216 = api.parseRs216 := funext fun w => funext fun op => (same_parsers16 a b w op .Rv32).2.2.1
  have f8 : A.parseImm16 = api.parseImm16 :=
    funext fun w => funext fun op => funext fun isa => (same_parsers16 a b w op isa).2.2.2
  have g1 : A.tryFrom = api.tryFrom := funext fun n => same_tryFrom a b n
  have g2 : A.format = api.format := funext fun op => same_format a b op
  have g3 : A.name = api.name := funext fun op => (a.name op).trans (b.name op).symm
  have g4 : A.display = api.display := funext fun i => same_display a b i
  have g5 : A.debug = api.debug := funext fun i => (a.debug i _).2 ((b.debug i _).1 rfl)
  have g6 : A.pretty = api.pretty := funext fun i => (a.pretty i _).2 ((b.pretty i _).1 rfl)
  have g8 : A.debugWith = api.debugWith :=
    funext fun f => funext fun i => (a.debugWith f i _).2 ((b.debugWith f i _).1 rfl)
  have g7 : A.eq = api.eq := funext fun i => funext fun j => Bool.eq_iff_iff.2 ((a.eq i j).trans (b.eq i j).symm)
  have k1 : A.slice32 = api.slice32 := funext fun w => funext fun e => funext fun s => same_slice32 a b w e s
  have k2 : A.slice16 = api.slice16 := funext fun w => funext fun e => funext fun s => same_slice16 a b w e s
  have k3 : A.set32 = api.set32 := funext fun w => funext fun m => same_set (a.set32 w) (b.set32 w) m
  have k4 : A.set16 = api.set16 := funext fun w => funext fun m => same_set (a.set16 w) (b.set16 w) m
  have k5 : A.signed = api.signed := funext fun x => funext fun n => same_signed a b x n
  cases A
  simp only at e1 e2 e3 e4 e5 e6 e7 e8 f5 f6 f7 f8 g1 g2 g3 g4 g5 g6 g7 g8 k1 k2 k3 k4 k5
  subst e1 e2 e3 e4 e5 e6 e7 e8 f5 f6 f7 f8 g1 g2 g3 g4 g5 g6 g7 g8 k1 k2 k3 k4 k5
  rfl

-- a decoder that mistakes a single word breaks the properties
example : ¬ Meets { api with
    decode32 := fun w isa => if w = 0x00500093 ∧ isa = .Rv32 then .err .InvalidFunct3 else U32.decode w isa } := by
  intro h
  have h := congrArg (fun A => A.decode32 0x00500093 .Rv32) (C69_unique _ h)
  exact absurd h (by decide)

end Raki
