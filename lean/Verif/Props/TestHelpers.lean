import Verif.Model.TestHelpers
import Verif.Props.Derive
import Verif.Props.Total
/-!
# C75: what a passing unit test says

The functions the crate's tests are written with take a word, an opcode and four operands, and either return or
panic.  The theorems say exactly when they return, for every word and every expectation.
-/

namespace Raki

/-- The decoded instruction has this opcode and these operands. -/
def shows (i : Instruction) (op : OpcodeKind) (rd rs1 rs2 : Option Nat) (imm : Option Int) : Prop :=
  i.opc = op ∧ i.rd = rd ∧ i.rs1 = rs1 ∧ i.rs2 = rs2 ∧ i.imm = imm

/-- Five assertions in a row. -/
private def five (c1 c2 c3 c4 c5 : Bool) : RustM Unit := do
  rAssert c1; rAssert c2; rAssert c3; rAssert c4; rAssert c5

private theorem five_eq (c1 c2 c3 c4 c5 : Bool) :
    five c1 c2 c3 c4 c5 = if c1 && c2 && c3 && c4 && c5 then .ok () else .panic := by
  cases c1 <;> cases c2 <;> cases c3 <;> cases c4 <;> cases c5 <;> rfl

private theorem five_ok (c1 c2 c3 c4 c5 : Bool) : five c1 c2 c3 c4 c5 = .ok () ↔
    c1 = true ∧ c2 = true ∧ c3 = true ∧ c4 = true ∧ c5 = true := by
  rw [five_eq]; simp [and_assoc]

private theorem five_cases (c1 c2 c3 c4 c5 : Bool) : five c1 c2 c3 c4 c5 = .ok () ∨
    five c1 c2 c3 c4 c5 = .panic := by
  rw [five_eq]; split <;> simp

private theorem test_32_of (isa : Isa) (w : BitVec 32) (op o : OpcodeKind) (rd rs1 rs2 a b c : Option Nat)
    (imm d : Option Int) (h : U32.parse_opcode w isa = .ok o) (ha : U32.parse_rd w o = .ok a)
    (hb : U32.parse_rs1 w o = .ok b) (hc : U32.parse_rs2 w o = .ok c) (hd : U32.parse_imm w o isa = .ok d) :
    test_32 isa w op rd rs1 rs2 imm =
      five (o.eq op) (eqOption a rd) (eqOption b rs1) (eqOption c rs2) (eqOption d imm) := by
  simp only [test_32, h, bind, RustM.bind, unwrapResult, ha, hb, hc, hd]
  rfl

private theorem test_16_of (isa : Isa) (w : BitVec 16) (op o : OpcodeKind) (rd rs1 rs2 a b c : Option Nat)
    (imm d : Option Int) (h : U16.parse_opcode w isa = .ok o) (ha : U16.parse_rd w o = .ok a)
    (hb : U16.parse_rs1 w o = .ok b) (hc : U16.parse_rs2 w o = .ok c) (hd : U16.parse_imm w o isa = .ok d) :
    test_16 isa w op rd rs1 rs2 imm =
      five (o.eq op) (eqOption a rd) (eqOption b rs1) (eqOption c rs2) (eqOption d imm) := by
  simp only [test_16, h, bind, RustM.bind, unwrapResult, ha, hb, hc, hd]
  rfl

private theorem zicfiss_of (w : BitVec 16) (op o : OpcodeKind) (rd rs1 rs2 a b c : Option Nat)
    (imm d : Option Int) (h : U16.parse_opcode w .Rv64 = .ok o) (ha : U16.parse_rd w o = .ok a)
    (hb : U16.parse_rs1 w o = .ok b) (hc : U16.parse_rs2 w o = .ok c) (hd : U16.parse_imm w o .Rv64 = .ok d) :
    zicfiss_test_16 w op rd rs1 rs2 imm =
      five true (eqOption a rd) (eqOption b rs1) (eqOption c rs2) (eqOption d imm) := by
  simp only [zicfiss_test_16, h, bind, RustM.bind, unwrapResult, ha, hb, hc, hd]
  rfl

/-- C75, 32-bit.  A call returns exactly when `decode` gives an instruction with the expected opcode and operands. -/
theorem C75_test_32 (isa : Isa) (w : BitVec 32) (op : OpcodeKind) (rd rs1 rs2 : Option Nat) (imm : Option Int) :
    test_32 isa w op rd rs1 rs2 imm = .ok () ↔
      ∃ i, U32.decode w isa = .ok i ∧ shows i op rd rs1 rs2 imm := by
  cases h : U32.parse_opcode w isa with
  | ok o =>
    obtain ⟨a, b, c, d, ha, hb, hc, hd, he⟩ := C25_decode32_parse_ok w isa o h
    rw [test_32_of isa w op o rd rs1 rs2 a b c imm d h ha hb hc hd, five_ok, he]
    simp only [C55_eq_opcode, eqOption_iff, RustM.ok.injEq, exists_eq_left', shows]
  | err e => simp [test_32, h, bind, RustM.bind, unwrapResult, U32.decode]
  | panic => simp [test_32, h, bind, RustM.bind, unwrapResult, U32.decode]

/-- C75, 32-bit.  A call that does not return panics. -/
theorem C75_test_32_panics (isa : Isa) (w : BitVec 32) (op : OpcodeKind) (rd rs1 rs2 : Option Nat)
    (imm : Option Int) : test_32 isa w op rd rs1 rs2 imm = .panic ↔
      ∀ i, U32.decode w isa = .ok i → ¬ shows i op rd rs1 rs2 imm := by
  have key : test_32 isa w op rd rs1 rs2 imm = .panic ↔ ¬ test_32 isa w op rd rs1 rs2 imm = .ok () := by
    cases h : U32.parse_opcode w isa with
    | ok o =>
      obtain ⟨a, b, c, d, ha, hb, hc, hd, _⟩ := C25_decode32_parse_ok w isa o h
      rw [test_32_of isa w op o rd rs1 rs2 a b c imm d h ha hb hc hd]
      rcases five_cases (o.eq op) (eqOption a rd) (eqOption b rs1) (eqOption c rs2) (eqOption d imm) with h | h <;>
        simp [h]
    | err e => simp [test_32, h, bind, RustM.bind, unwrapResult]
    | panic => simp [test_32, h, bind, RustM.bind, unwrapResult]
  rw [key, C75_test_32]
  simp only [not_exists, not_and]

/-- C75, 16-bit.  Likewise; the zero halfword, which `decode` refuses, passes no test either. -/
theorem C75_test_16 (isa : Isa) (w : BitVec 16) (op : OpcodeKind) (rd rs1 rs2 : Option Nat) (imm : Option Int) :
    test_16 isa w op rd rs1 rs2 imm = .ok () ↔
      ∃ i, U16.decode w isa = .ok i ∧ shows i op rd rs1 rs2 imm := by
  cases h : U16.parse_opcode w isa with
  | ok o =>
    obtain ⟨a, b, c, d, ha, hb, hc, hd, he⟩ := C25_decode16_parse_ok w isa o h
    rw [test_16_of isa w op o rd rs1 rs2 a b c imm d h ha hb hc hd, five_ok, he]
    simp only [C55_eq_opcode, eqOption_iff, RustM.ok.injEq, exists_eq_left', shows]
  | err e => simp only [test_16, h, bind, RustM.bind, unwrapResult, U16.decode]; split <;> simp
  | panic => simp only [test_16, h, bind, RustM.bind, unwrapResult, U16.decode]; split <;> simp

/-- C75, 16-bit.  A call that does not return panics. -/
theorem C75_test_16_panics (isa : Isa) (w : BitVec 16) (op : OpcodeKind) (rd rs1 rs2 : Option Nat)
    (imm : Option Int) : test_16 isa w op rd rs1 rs2 imm = .panic ↔
      ∀ i, U16.decode w isa = .ok i → ¬ shows i op rd rs1 rs2 imm := by
  have key : test_16 isa w op rd rs1 rs2 imm = .panic ↔ ¬ test_16 isa w op rd rs1 rs2 imm = .ok () := by
    cases h : U16.parse_opcode w isa with
    | ok o =>
      obtain ⟨a, b, c, d, ha, hb, hc, hd, _⟩ := C25_decode16_parse_ok w isa o h
      rw [test_16_of isa w op o rd rs1 rs2 a b c imm d h ha hb hc hd]
      rcases five_cases (o.eq op) (eqOption a rd) (eqOption b rs1) (eqOption c rs2) (eqOption d imm) with h | h <;>
        simp [h]
    | err e => simp [test_16, h, bind, RustM.bind, unwrapResult]
    | panic => simp [test_16, h, bind, RustM.bind, unwrapResult]
  rw [key, C75_test_16]
  simp only [not_exists, not_and]

/-- C75.  At most one expectation passes for a word: a passing test pins the opcode and all four operands. -/
theorem C75_one_expectation (isa : Isa) (w : BitVec 32) (op op' : OpcodeKind) (rd rs1 rs2 rd' rs1' rs2' : Option Nat)
    (imm imm' : Option Int) (h : test_32 isa w op rd rs1 rs2 imm = .ok ())
    (h' : test_32 isa w op' rd' rs1' rs2' imm' = .ok ()) :
    op = op' ∧ rd = rd' ∧ rs1 = rs1' ∧ rs2 = rs2' ∧ imm = imm' := by
  obtain ⟨i, hi, rfl, rfl, rfl, rfl, rfl⟩ := (C75_test_32 ..).1 h
  obtain ⟨j, hj, rfl, rfl, rfl, rfl, rfl⟩ := (C75_test_32 ..).1 h'
  rw [hi] at hj
  cases hj
  exact ⟨rfl, rfl, rfl, rfl, rfl⟩

/-- C75.  The wrappers fix the ISA. -/
theorem C75_wrappers (w : BitVec 32) (h : BitVec 16) (op : OpcodeKind) (rd rs1 rs2 : Option Nat)
    (imm : Option Int) :
    (test_32_in_rv32 w op rd rs1 rs2 imm = .ok () ↔ ∃ i, U32.decode w .Rv32 = .ok i ∧ shows i op rd rs1 rs2 imm) ∧
    (test_32_in_rv64 w op rd rs1 rs2 imm = .ok () ↔ ∃ i, U32.decode w .Rv64 = .ok i ∧ shows i op rd rs1 rs2 imm) ∧
    (test_16_in_rv32 h op rd rs1 rs2 imm = .ok () ↔ ∃ i, U16.decode h .Rv32 = .ok i ∧ shows i op rd rs1 rs2 imm) ∧
    (test_16_in_rv64 h op rd rs1 rs2 imm = .ok () ↔ ∃ i, U16.decode h .Rv64 = .ok i ∧ shows i op rd rs1 rs2 imm) :=
  ⟨C75_test_32 .., C75_test_32 .., C75_test_16 .., C75_test_16 ..⟩

/-- C75.  The closure of the test `zicfiss_16` checks the operands but not the opcode. -/
theorem C75_zicfiss_16 (w : BitVec 16) (op : OpcodeKind) (rd rs1 rs2 : Option Nat) (imm : Option Int) :
    zicfiss_test_16 w op rd rs1 rs2 imm = .ok () ↔
      ∃ i, U16.decode w .Rv64 = .ok i ∧ i.rd = rd ∧ i.rs1 = rs1 ∧ i.rs2 = rs2 ∧ i.imm = imm := by
  cases h : U16.parse_opcode w .Rv64 with
  | ok o =>
    obtain ⟨a, b, c, d, ha, hb, hc, hd, he⟩ := C25_decode16_parse_ok w .Rv64 o h
    rw [zicfiss_of w op o rd rs1 rs2 a b c imm d h ha hb hc hd, five_ok, he]
    simp only [eqOption_iff, RustM.ok.injEq, exists_eq_left', true_and]
  | err e => simp only [zicfiss_test_16, h, bind, RustM.bind, unwrapResult, U16.decode]; split <;> simp
  | panic => simp only [zicfiss_test_16, h, bind, RustM.bind, unwrapResult, U16.decode]; split <;> simp

/-- C75.  So that closure passes whatever opcode it is told to expect. -/
theorem C75_zicfiss_16_any_opcode (w : BitVec 16) (op op' : OpcodeKind) (rd rs1 rs2 : Option Nat)
    (imm : Option Int) : zicfiss_test_16 w op rd rs1 rs2 imm = zicfiss_test_16 w op' rd rs1 rs2 imm := rfl

-- a passing test, and the same with a wrong opcode, a wrong register and on the other ISA
example : test_32_in_rv64 0x00500093 (.BaseI .ADDI) (some 1) (some 0) none (some 5) = .ok () := by decide
example : test_32_in_rv64 0x00500093 (.BaseI .SLTI) (some 1) (some 0) none (some 5) = .panic := by decide
example : test_32_in_rv64 0x00500093 (.BaseI .ADDI) (some 1) (some 1) none (some 5) = .panic := by decide
example : test_32_in_rv32 0x00003003 (.BaseI .LD) (some 0) (some 0) none (some 0) = .panic ∧
    test_32_in_rv64 0x00003003 (.BaseI .LD) (some 0) (some 0) none (some 0) = .ok () := by decide
example : test_16_in_rv64 0x4501 (.C .LI) (some 10) none none (some 0) = .ok () := by decide
example : zicfiss_test_16 0x6081 (.Zicfiss .C_SSPUSH) (some 1) none none none = .ok () ∧
    zicfiss_test_16 0x6081 (.M .MUL) (some 1) none none none = .ok () ∧
    test_16_in_rv64 0x6081 (.M .MUL) (some 1) none none none = .panic := by decide

end Raki
