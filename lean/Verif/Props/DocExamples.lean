import Verif.Props.DocText
import Verif.Props.Helpers
import Verif.Source.Parsed
/-!
# C80: the examples in the documentation

The code blocks in the documentation of the crate, other than those that show how instructions are written (C70).
-/

namespace Raki

open Source

set_option linter.constructorNameAsVariable false

/-- The example of the crate, src/lib.rs:11-26. -/
def exampleCrate : List String := [
  "use raki::{BaseIOpcode, Decode, Instruction, Isa, OpcodeKind};",
  "",
  "fn example() {",
  "    let inst_bytes: u32 = 0b1110_1110_1100_0010_1000_0010_1001_0011;",
  "    let inst: Instruction = match inst_bytes.decode(Isa::Rv32) {",
  "        Ok(inst) => inst,",
  "        Err(e) => panic!(\"decoding failed due to {e:?}\"),",
  "    };",
  "",
  "    assert_eq!(inst.opc, OpcodeKind::BaseI(BaseIOpcode::ADDI));",
  "    println!(\"{inst}\");",
  "}",
  "// --output--",
  "// addi t0, t0, -276"]

/-- The example of `DecodingError`, src/decode.rs:31-45. -/
def exampleError : List String := [
  "use raki::{Isa, Decode, DecodingError, Instruction};",
  "",
  "// try to decode illegal instruction.",
  "let illegal_inst: u32 = 0b0000_0000_0000_0000_0000_0000_0000_0000;",
  "if let Err(error) = illegal_inst.decode(Isa::Rv64) {",
  "    assert!(matches!(error, DecodingError::InvalidOpcode));",
  "}",
  "",
  "// try to decode rv64 instruction on rv32 environment.",
  "let rv64_inst: u32 = 0b100000000100010011010000100011;",
  "if let Err(error) = rv64_inst.decode(Isa::Rv32) {",
  "    assert!(matches!(error, DecodingError::OnlyRv64Inst));",
  "}"]

/-- The example of `Decode`, src/decode.rs:76-81. -/
def exampleDecode : List String := [
  "use raki::{Isa, Decode};",
  "",
  "let inst: u32 = 0b1110_1110_1100_0010_1000_0010_1001_0011;",
  "println!(\"{:?}\", inst.decode(Isa::Rv64));"]

/-- The example of `slice`, src/decode.rs:125-130; it is marked to be ignored when the tests are run. -/
def exampleSlice : List String := [
  "use raki::decode::DecodeUtil;",
  "let bit = 0b0101_0101_1001;",
  "let sliced = bit.slice(5, 2);",
  "assert_eq!(sliced, 0b1_0110);"]

/-- The example of `set`, src/decode.rs:137-142; it is marked to be ignored when the tests are run. -/
def exampleSet : List String := [
  "use raki::decode::DecodeUtil;",
  "let bit: u32 = 0b1010_1101;",
  "let sliced = bit.set(&[7, 5, 3, 2, 0, 6, 4, 1]);",
  "assert_eq!(sliced, 0b1111_1000);"]

/-- The examples, as character codes. -/
noncomputable def exampleCodes : List (List (List Nat)) :=
  [codes_of% exampleCrate, codes_of% exampleError, codes_of% exampleDecode, codes_of% exampleSlice,
    codes_of% exampleSet]

theorem exampleCodes_eq :
    [exampleCrate, exampleError, exampleDecode, exampleSlice, exampleSet].map (·.map codes) = exampleCodes := by
  have h0 := codes_lines (codes_of% exampleCrate) exampleCrate (by kernel_rfl) (by kernel_rfl)
  have h1 := codes_lines (codes_of% exampleError) exampleError (by kernel_rfl) (by kernel_rfl)
  have h2 := codes_lines (codes_of% exampleDecode) exampleDecode (by kernel_rfl) (by kernel_rfl)
  have h3 := codes_lines (codes_of% exampleSlice) exampleSlice (by kernel_rfl) (by kernel_rfl)
  have h4 := codes_lines (codes_of% exampleSet) exampleSet (by kernel_rfl) (by kernel_rfl)
  rw [List.map_cons, List.map_cons, List.map_cons, List.map_cons, List.map_cons, List.map_nil, h0, h1, h2, h3, h4]
  rfl

/-- The code blocks of the files: one in lib.rs, four in decode.rs, those that show instructions in instruction.rs, and
no others. -/
theorem C80_blocks : files.flatMap (fun f => (blocks (f.2.map codes)).map (·.body)) =
    [exampleCrate, exampleError, exampleDecode, exampleSlice, exampleSet].map (·.map codes) ++
      (blocks (instruction_rs.map codes)).map (·.body) := by
  have hi : instruction_rs.map codes = instructionText_codes := codes_lines _ _ (by kernel_rfl) (by kernel_rfl)
  have hf : files.flatMap (fun f => (blocks (f.2.map codes)).map (·.body)) =
      files_codes.flatMap fun c => (blocks c.2).map (·.body) := by
    rw [← files_eq, List.flatMap_map]
  rw [hf, hi, exampleCodes_eq]
  kernel_rfl

/-- C80 is false: the example of `slice` does not hold, for no receiver can `slice(5, 2)` be the documented value. -/
theorem C80_slice_refuted :
    (∀ w, U32.slice w 5 2 ≠ .ok 0b1_0110#32) ∧ (∀ w, U16.slice w 5 2 ≠ .ok 0b1_0110#16) ∧
    U32.slice 0b0101_0101_1001#32 5 2 = .ok 0b0110#32 := by
  refine ⟨fun w h => ?_, fun w h => ?_, by decide⟩
  · have := C59_slice32 w 5 2
    rw [if_pos (by decide)] at this
    obtain ⟨r, hr, hv⟩ := this
    rw [hr] at h
    cases h
    have : (0b1_0110#32).toNat = 22 := rfl
    omega
  · have := C59_slice16 w 5 2
    rw [if_pos (by decide)] at this
    obtain ⟨r, hr, hv⟩ := this
    rw [hr] at h
    cases h
    have : (0b1_0110#16).toNat = 22 := rfl
    omega

/-- C80 is false: the example of `set` does not hold.  Bit 7 of the receiver goes to the first position listed, and so
on; the documented value is what one gets if bit 7 of the result comes from the first position listed. -/
theorem C80_set_refuted :
    U32.set 0b1010_1101#32 [7, 5, 3, 2, 0, 6, 4, 1] = .ok 0b1100_1011#32 ∧
    ∀ k : Fin 8, (0b1111_1000#32).getLsbD k = (0b1010_1101#32).getLsbD ([1, 4, 6, 0, 2, 3, 5, 7].getD k 0) := by
  decide

theorem listed_iff (mask : List Nat) (k : Nat) (P : Nat → Prop) :
    (∃ a b, mask = a ++ k :: b ∧ P b.length) ↔ ∃ i, mask.reverse[i]? = some k ∧ P i := by
  constructor
  · rintro ⟨a, b, rfl, h⟩
    refine ⟨b.length, ?_, h⟩
    simp
  · rintro ⟨i, hi, h⟩
    obtain ⟨hl, he⟩ := List.getElem?_eq_some_iff.1 hi
    refine ⟨(mask.reverse.drop (i + 1)).reverse, (mask.reverse.take i).reverse, ?_, ?_⟩
    · have := List.take_append_drop i mask.reverse
      rw [List.drop_eq_getElem_cons hl, he] at this
      have := congrArg List.reverse this
      simp only [List.reverse_reverse, List.reverse_append, List.reverse_cons, List.append_assoc, List.cons_append,
        List.nil_append] at this
      exact this.symm
    · have hl : i ≤ mask.length := by simpa using Nat.le_of_lt hl
      simpa [Nat.min_eq_left hl] using h

theorem bit_iff {n : Nat} (w : BitVec n) (k : Nat) : w.toNat / 2 ^ k % 2 = 1 ↔ w.getLsbD k = true := by
  rw [BitVec.getLsbD, Nat.testBit_eq_decide_div_mod_eq, decide_eq_true_iff]

/-- C80.  What the documentation of `set` says, bit `j` of the result is the bit of the receiver at the position listed
`j` places before the last, holds for all receivers exactly if the list is its own inverse. -/
theorem C80_set_iff (mask : List Nat) (h : (∀ m ∈ mask, m < 32) ∧ mask.length ≤ 32) :
    (∀ w : BitVec 32, ∃ r, U32.set w mask = .ok r ∧
      ∀ j, r.getLsbD j = (mask.reverse[j]?.map w.getLsbD).getD false) ↔
    ∀ j < mask.length, ∃ m, mask.reverse[j]? = some m ∧ mask.reverse[m]? = some j := by
  have hs : ∀ w : BitVec 32, ∃ r, U32.set w mask = .ok r ∧
      ∀ k, r.getLsbD k = true ↔ ∃ i, mask.reverse[i]? = some k ∧ w.getLsbD i = true := by
    intro w
    have := C59_set32 w mask
    rw [if_pos h] at this
    obtain ⟨r, hr, hk⟩ := this
    refine ⟨r, hr, fun k => ?_⟩
    rw [← bit_iff, hk, listed_iff mask k fun i => w.toNat / 2 ^ i % 2 = 1]
    simp only [bit_iff]
  constructor
  · intro hd j hj
    have hj' : mask.reverse[j]? = some (mask.reverse[j]'(by simpa using hj)) := by simp [hj]
    generalize mask.reverse[j]'(by simpa using hj) = m at hj'
    have hm : m < 32 := h.1 m (by
      have := List.mem_of_getElem? hj'
      simpa using this)
    refine ⟨m, hj', ?_⟩
    obtain ⟨r, hr, hk⟩ := hs (BitVec.twoPow 32 m)
    obtain ⟨r', hr', hk'⟩ := hd (BitVec.twoPow 32 m)
    rw [hr] at hr'
    cases hr'
    have h1 : r.getLsbD j = true := by
      rw [hk', hj']
      simp [hm]
    obtain ⟨i, hi, hw⟩ := (hk j).1 h1
    simp only [BitVec.getLsbD_twoPow, Bool.and_eq_true, decide_eq_true_eq] at hw
    rw [hw.2]
    exact hi
  · intro hi w
    obtain ⟨r, hr, hk⟩ := hs w
    refine ⟨r, hr, fun j => ?_⟩
    rw [Bool.eq_iff_iff, hk]
    constructor
    · rintro ⟨i, he, hw⟩
      have hl : i < mask.length := by
        have := (List.getElem?_eq_some_iff.1 he).1
        simpa using this
      obtain ⟨m, h1, h2⟩ := hi i hl
      rw [he] at h1
      cases h1
      simp [h2, hw]
    · intro hg
      cases hj : mask.reverse[j]? with
      | none => simp [hj] at hg
      | some m =>
        have hl : j < mask.length := by
          have := (List.getElem?_eq_some_iff.1 hj).1
          simpa using this
        obtain ⟨m', h1, h2⟩ := hi j hl
        rw [hj] at h1
        cases h1
        exact ⟨m, h2, by simpa [hj] using hg⟩
/-- The list `0, 2, 1` is not its own inverse, `0, 1, 2` is. -/
example : ¬ (∀ j < 3, ∃ m, [0, 2, 1].reverse[j]? = some m ∧ [0, 2, 1].reverse[m]? = some j) ∧
    ∀ j < 3, ∃ m, [0, 1, 2].reverse[j]? = some m ∧ [0, 1, 2].reverse[m]? = some j := by
  refine ⟨fun h => ?_, fun j hj => ?_⟩
  · obtain ⟨m, h1, h2⟩ := h 0 (by decide)
    cases h1
    cases h2
  · obtain rfl | rfl | rfl : j = 0 ∨ j = 1 ∨ j = 2 := by omega
    · exact ⟨2, rfl, rfl⟩
    · exact ⟨1, rfl, rfl⟩
    · exact ⟨0, rfl, rfl⟩

/-- C80, the examples that are run as tests hold.  Missing: those of `slice` and `set`.  The word of `Decode`'s example
is that of the crate's. -/
theorem C80_examples_partial :
    (∃ i, U32.decode 0b1110_1110_1100_0010_1000_0010_1001_0011#32 .Rv32 = .ok i ∧ i.opc = .BaseI .ADDI ∧
      i.fmt = .ok "addi t0, t0, -276") ∧
    (∃ i, U32.decode 0b1110_1110_1100_0010_1000_0010_1001_0011#32 .Rv64 = .ok i) ∧
    U32.decode 0b0000_0000_0000_0000_0000_0000_0000_0000#32 .Rv64 = .err .InvalidOpcode ∧
    U32.decode 0b100000000100010011010000100011#32 .Rv32 = .err .OnlyRv64Inst := by
  refine ⟨⟨_, rfl, rfl, ?_⟩, ⟨_, rfl⟩, rfl, rfl⟩
  decide

end Raki
