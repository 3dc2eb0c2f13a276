import Verif.Source.Holes
import Verif.Source.Reach
import Verif.Source.Codes
import Verif.Source.TestProgram
/-!
# The branches the unit tests reach

Found by running the tests on programs with holes.
-/

namespace Raki.Source

set_option linter.constructorNameAsVariable false

/-- The branches of each function that no test of the crate reaches. -/
def unseenOf : List (Id × Id × List Nat) := [
  (.decode, .only_rv64, [0]),
  (.Instruction, .fmt, [0, 1, 2, 3, 4, 5, 6, 7, 8, 9, 10, 11, 12, 13, 14, 15, 16, 17, 18, 19, 20, 21, 22, 23,
    24, 25, 26, 27]),
  (.instruction, .reg2str, [0, 1, 2, 3, 4, 5, 6, 7, 8, 9, 10, 11, 12, 13, 14, 15, 16, 17, 18, 19, 20, 21, 22,
    23, 24, 25, 26, 27, 28, 29, 30, 31, 32]),
  (.OpcodeKind, .fmt, [0, 1, 2, 3, 4, 5, 6, 7, 8, 9]),
  (.OpcodeKind, .get_format, [1, 2, 4, 5, 6, 7, 8, 9]),
  (.AOpcode, .fmt, [0, 1, 2, 3, 4, 5, 6, 7, 8, 9, 10, 11, 12, 13, 14, 15, 16, 17, 18, 19, 20, 21]),
  (.AOpcode, .get_format, [0, 1]),
  (.BaseIOpcode, .fmt, [0, 1, 2, 3, 4, 5, 6, 7, 8, 9, 10, 11, 12, 13, 14, 15, 16, 17, 18, 19, 20, 21, 22, 23,
    24, 25, 26, 27, 28, 29, 30, 31, 32, 33, 34, 35, 36, 37, 38, 39, 40, 41, 42, 43, 44, 45, 46, 47, 48, 49, 50]),
  (.BaseIOpcode, .get_format, [0, 1, 2, 3, 4, 6, 7]),
  (.COpcode, .fmt, [0, 1, 2, 3, 4, 5, 6, 7, 8, 9, 10, 11, 12, 13, 14, 15, 16, 17, 18, 19, 20, 21, 22, 23, 24,
    25, 26, 27, 28, 29, 30, 31, 32, 33]),
  (.COpcode, .get_format, [0, 1, 2, 3, 4, 5, 6, 7, 8, 9, 11]),
  (.MOpcode, .fmt, [0, 1, 2, 3, 4, 5, 6, 7, 8, 9, 10, 11, 12]),
  (.MOpcode, .get_format, [0]),
  (.PrivOpcode, .fmt, [0, 1, 2, 3]),
  (.PrivOpcode, .get_format, [0, 1]),
  (.ZicbozOpcode, .fmt, [0]),
  (.ZicbozOpcode, .get_format, [0]),
  (.ZicfissOpcode, .fmt, [0, 1, 2, 3, 4, 5, 6]),
  (.ZicfissOpcode, .get_format, [0, 1, 2, 3, 4]),
  (.ZicntrOpcode, .fmt, [0, 1, 2, 3, 4, 5]),
  (.ZicntrOpcode, .get_format, [0]),
  (.ZicsrOpcode, .fmt, [0, 1, 2, 3, 4, 5]),
  (.ZicsrOpcode, .get_format, [0, 1]),
  (.ZifenceiOpcode, .fmt, [0]),
  (.ZifenceiOpcode, .get_format, [0]),
  (.u16, .decode, [0]),
  (.u16, .parse_opcode, [2]),
  (.u16, .parse_rd, [2]),
  (.u16, .parse_rs1, [2]),
  (.u16, .parse_rs2, [2]),
  (.u16, .parse_imm, [2]),
  (.u32, .parse_opcode, [9, 10]),
  (.u32, .parse_rd, [9]),
  (.u32, .parse_rs1, [9]),
  (.u32, .parse_rs2, [9]),
  (.u32, .parse_imm, [9]),
  (.u32, .parse_extension, [3, 7, 11, 12, 13, 14]),
  (.a_extension_bit_32, .parse_opcode, [2, 3, 4, 6, 7, 8, 9, 10, 11, 12, 13, 16, 17, 18, 19, 21, 22, 23, 24, 25,
    26, 27, 28]),
  (.base_i_bit_32, .parse_opcode, [3, 6, 8, 10, 11, 13, 14, 15, 17, 18, 19, 20, 23, 24, 25, 26, 29, 30, 31, 32,
    33, 34, 35, 36, 37, 39, 40, 41, 42, 43, 44, 45, 46, 47, 48, 49, 50, 53, 55, 56, 57, 59, 60, 61, 62, 63, 64,
    65, 66, 71, 72, 73, 74, 75, 76, 77, 78, 79, 80, 81, 82, 83, 84, 85, 86, 87, 88, 89, 90, 91, 92, 93]),
  (.base_i_bit_32, .parse_imm, [5, 6, 7, 8]),
  (.c_extension_bit_16, .quadrant0, [0, 1, 2, 4, 5]),
  (.c_extension_bit_16, .quadrant1, [2, 3, 4, 5, 13, 14, 15, 16, 17, 18, 19, 20, 21, 22, 23, 24, 25, 26, 28,
    30]),
  (.c_extension_bit_16, .quadrant2, [0, 1, 2, 9, 10, 11, 12, 13, 14, 15]),
  (.c_extension_bit_16, .parse_opcode, [0, 5]),
  (.c_extension_bit_16, .parse_rd, [0]),
  (.c_extension_bit_16, .parse_rs2, [1]),
  (.c_extension_bit_16, .parse_imm, [0, 2, 10, 11, 12, 13, 14]),
  (.m_extension_bit_32, .parse_opcode, [2, 3, 4, 5, 7, 9, 10, 11, 12, 13, 14, 15, 16, 17]),
  (.priv_extension_bit_32, .parse_opcode, [1, 3, 4, 5]),
  (.priv_extension_bit_32, .parse_rs1, [0]),
  (.priv_extension_bit_32, .parse_rs2, [0]),
  (.zicboz_extension_bit_32, .parse_opcode, [4, 5, 6, 7]),
  (.zicfiss_extension_bit_32, .parse_opcode, [4, 6, 7, 11, 12]),
  (.zicfiss_extension_bit_32, .parse_rd, [2]),
  (.zicfiss_extension_bit_32, .parse_rs1, [2, 3]),
  (.zicfiss_extension_bit_32, .parse_rs2, [2]),
  (.zicfiss_extension_bit_32, .parse_imm, [1]),
  (.zicfiss_extension_bit_16, .parse_opcode, [2]),
  (.zicfiss_extension_bit_16, .parse_rd, [2]),
  (.zicntr_extension_bit_32, .parse_opcode, [2, 4, 5, 6, 7, 8, 9, 10]),
  (.zicsr_extension_bit_32, .parse_opcode, [1, 4, 6, 7, 8]),
  (.zifencei_extension_bit_32, .parse_opcode, [1])]

/-- The branches that no test of the crate reaches. -/
def unseen : List Branch := unseenOf.flatMap fun x => x.2.2.map fun k => ⟨x.1, x.2.1, k⟩

/-- The crate with holes in the branches that no test reaches, compiled for the tests. -/
def holed : List Fn :=
  testCrate.map fun fn =>
    match unseenOf.find? (fun x => x.1 = fn.owner ∧ x.2.1 = fn.name) with
    | none => fn
    | some x => { fn with body := (fn.body.fill (fun k => if x.2.2.contains k then some blank else none) 0).1 }

/-- Branches in the order of the program, each with a test that reaches it. -/
def seenBy : List (Branch × Id × Id) := [
  (⟨.Instruction, .try_from, 0⟩, .lib_tests, .usize_try_from_test),
  (⟨.Instruction, .try_from, 1⟩, .lib_tests, .usize_try_from_test),
  (⟨.decode, .only_rv64, 1⟩, .a_extension_test_a, .a_decode_test),
  (⟨.OpcodeKind, .get_format, 0⟩, .lib_tests, .usize_try_from_test),
  (⟨.OpcodeKind, .get_format, 3⟩, .lib_tests, .usize_try_from_test),
  (⟨.BaseIOpcode, .get_format, 5⟩, .lib_tests, .usize_try_from_test),
  (⟨.COpcode, .get_format, 10⟩, .lib_tests, .usize_try_from_test),
  (⟨.u16, .decode, 1⟩, .lib_tests, .usize_try_from_test),
  (⟨.u16, .parse_opcode, 0⟩, .lib_tests, .usize_try_from_test),
  (⟨.u16, .parse_opcode, 1⟩, .zicfiss_extension_test_zicfiss, .zicfiss_16),
  (⟨.u16, .parse_rd, 0⟩, .lib_tests, .usize_try_from_test),
  (⟨.u16, .parse_rd, 1⟩, .zicfiss_extension_test_zicfiss, .zicfiss_16),
  (⟨.u16, .parse_rs1, 0⟩, .lib_tests, .usize_try_from_test),
  (⟨.u16, .parse_rs1, 1⟩, .zicfiss_extension_test_zicfiss, .zicfiss_16),
  (⟨.u16, .parse_rs2, 0⟩, .lib_tests, .usize_try_from_test),
  (⟨.u16, .parse_rs2, 1⟩, .zicfiss_extension_test_zicfiss, .zicfiss_16),
  (⟨.u16, .parse_imm, 0⟩, .lib_tests, .usize_try_from_test),
  (⟨.u16, .parse_imm, 1⟩, .zicfiss_extension_test_zicfiss, .zicfiss_16),
  (⟨.u16, .parse_extension, 0⟩, .zicfiss_extension_test_zicfiss, .zicfiss_16),
  (⟨.u16, .parse_extension, 1⟩, .lib_tests, .usize_try_from_test),
  (⟨.u32, .parse_opcode, 0⟩, .lib_tests, .usize_try_from_test),
  (⟨.u32, .parse_opcode, 1⟩, .m_extension_test_m, .m_decode_test),
  (⟨.u32, .parse_opcode, 2⟩, .a_extension_test_a, .a_decode_test),
  (⟨.u32, .parse_opcode, 3⟩, .zifencei_extension_test_zifenci, .zifenci_decode_test),
  (⟨.u32, .parse_opcode, 4⟩, .zicsr_extension_test_zicsr, .zicsr_decode_test),
  (⟨.u32, .parse_opcode, 5⟩, .zicfiss_extension_test_zicfiss, .zicfiss_32bit_decode_test),
  (⟨.u32, .parse_opcode, 6⟩, .zicntr_extension_test_zicntr, .zicntr_decode_test),
  (⟨.u32, .parse_opcode, 7⟩, .zicboz_extension_test_zicboz, .zicboz_decode_test),
  (⟨.u32, .parse_opcode, 8⟩, .priv_extension_test_priv, .priv_decode_test),
  (⟨.u32, .parse_rd, 0⟩, .lib_tests, .usize_try_from_test),
  (⟨.u32, .parse_rd, 1⟩, .m_extension_test_m, .m_decode_test),
  (⟨.u32, .parse_rd, 2⟩, .a_extension_test_a, .a_decode_test),
  (⟨.u32, .parse_rd, 3⟩, .zifencei_extension_test_zifenci, .zifenci_decode_test),
  (⟨.u32, .parse_rd, 4⟩, .zicsr_extension_test_zicsr, .zicsr_decode_test),
  (⟨.u32, .parse_rd, 5⟩, .zicfiss_extension_test_zicfiss, .zicfiss_32bit_decode_test),
  (⟨.u32, .parse_rd, 6⟩, .zicntr_extension_test_zicntr, .zicntr_decode_test),
  (⟨.u32, .parse_rd, 7⟩, .zicboz_extension_test_zicboz, .zicboz_decode_test),
  (⟨.u32, .parse_rd, 8⟩, .priv_extension_test_priv, .priv_decode_test),
  (⟨.u32, .parse_rs1, 0⟩, .lib_tests, .usize_try_from_test),
  (⟨.u32, .parse_rs1, 1⟩, .m_extension_test_m, .m_decode_test),
  (⟨.u32, .parse_rs1, 2⟩, .a_extension_test_a, .a_decode_test),
  (⟨.u32, .parse_rs1, 3⟩, .zifencei_extension_test_zifenci, .zifenci_decode_test),
  (⟨.u32, .parse_rs1, 4⟩, .zicsr_extension_test_zicsr, .zicsr_decode_test),
  (⟨.u32, .parse_rs1, 5⟩, .zicfiss_extension_test_zicfiss, .zicfiss_32bit_decode_test),
  (⟨.u32, .parse_rs1, 6⟩, .zicntr_extension_test_zicntr, .zicntr_decode_test),
  (⟨.u32, .parse_rs1, 7⟩, .zicboz_extension_test_zicboz, .zicboz_decode_test),
  (⟨.u32, .parse_rs1, 8⟩, .priv_extension_test_priv, .priv_decode_test),
  (⟨.u32, .parse_rs2, 0⟩, .lib_tests, .usize_try_from_test),
  (⟨.u32, .parse_rs2, 1⟩, .m_extension_test_m, .m_decode_test),
  (⟨.u32, .parse_rs2, 2⟩, .a_extension_test_a, .a_decode_test),
  (⟨.u32, .parse_rs2, 3⟩, .zifencei_extension_test_zifenci, .zifenci_decode_test),
  (⟨.u32, .parse_rs2, 4⟩, .zicsr_extension_test_zicsr, .zicsr_decode_test),
  (⟨.u32, .parse_rs2, 5⟩, .zicfiss_extension_test_zicfiss, .zicfiss_32bit_decode_test),
  (⟨.u32, .parse_rs2, 6⟩, .zicntr_extension_test_zicntr, .zicntr_decode_test),
  (⟨.u32, .parse_rs2, 7⟩, .zicboz_extension_test_zicboz, .zicboz_decode_test),
  (⟨.u32, .parse_rs2, 8⟩, .priv_extension_test_priv, .priv_decode_test),
  (⟨.u32, .parse_imm, 0⟩, .lib_tests, .usize_try_from_test),
  (⟨.u32, .parse_imm, 1⟩, .m_extension_test_m, .m_decode_test),
  (⟨.u32, .parse_imm, 2⟩, .a_extension_test_a, .a_decode_test),
  (⟨.u32, .parse_imm, 3⟩, .zifencei_extension_test_zifenci, .zifenci_decode_test),
  (⟨.u32, .parse_imm, 4⟩, .zicsr_extension_test_zicsr, .zicsr_decode_test),
  (⟨.u32, .parse_imm, 5⟩, .zicfiss_extension_test_zicfiss, .zicfiss_32bit_decode_test),
  (⟨.u32, .parse_imm, 6⟩, .zicntr_extension_test_zicntr, .zicntr_decode_test),
  (⟨.u32, .parse_imm, 7⟩, .zicboz_extension_test_zicboz, .zicboz_decode_test),
  (⟨.u32, .parse_imm, 8⟩, .priv_extension_test_priv, .priv_decode_test),
  (⟨.u32, .parse_extension, 0⟩, .zicboz_extension_test_zicboz, .zicboz_decode_test),
  (⟨.u32, .parse_extension, 1⟩, .zifencei_extension_test_zifenci, .zifenci_decode_test),
  (⟨.u32, .parse_extension, 2⟩, .zicboz_extension_test_zicboz, .zicboz_decode_test),
  (⟨.u32, .parse_extension, 4⟩, .a_extension_test_a, .a_decode_test),
  (⟨.u32, .parse_extension, 5⟩, .a_extension_test_a, .a_decode_test),
  (⟨.u32, .parse_extension, 6⟩, .zicfiss_extension_test_zicfiss, .zicfiss_32bit_decode_test),
  (⟨.u32, .parse_extension, 8⟩, .base_i_test_basei, .basei_decode_test),
  (⟨.u32, .parse_extension, 9⟩, .m_extension_test_m, .m_decode_test),
  (⟨.u32, .parse_extension, 10⟩, .base_i_test_basei, .basei_decode_test),
  (⟨.u32, .parse_extension, 15⟩, .base_i_test_basei, .basei_decode_test),
  (⟨.u32, .parse_extension, 16⟩, .base_i_test_basei, .basei_decode_test),
  (⟨.u32, .parse_extension, 17⟩, .base_i_test_basei, .basei_decode_test),
  (⟨.u32, .parse_extension, 18⟩, .priv_extension_test_priv, .priv_decode_test),
  (⟨.u32, .parse_extension, 19⟩, .zicntr_extension_test_zicntr, .zicntr_decode_test),
  (⟨.u32, .parse_extension, 20⟩, .zicntr_extension_test_zicntr, .zicntr_decode_test),
  (⟨.u32, .parse_extension, 21⟩, .zicsr_extension_test_zicsr, .zicsr_decode_test),
  (⟨.u32, .parse_extension, 22⟩, .zicfiss_extension_test_zicfiss, .zicfiss_32bit_decode_test),
  (⟨.u32, .parse_extension, 23⟩, .zicsr_extension_test_zicsr, .zicsr_decode_test),
  (⟨.u32, .parse_extension, 24⟩, .lib_tests, .usize_try_from_test),
  (⟨.a_extension_bit_32, .parse_opcode, 0⟩, .a_extension_test_a, .a_decode_test),
  (⟨.a_extension_bit_32, .parse_opcode, 1⟩, .a_extension_test_a, .a_decode_test),
  (⟨.a_extension_bit_32, .parse_opcode, 5⟩, .a_extension_test_a, .a_decode_test),
  (⟨.a_extension_bit_32, .parse_opcode, 14⟩, .a_extension_test_a, .a_decode_test),
  (⟨.a_extension_bit_32, .parse_opcode, 15⟩, .a_extension_test_a, .a_decode_test),
  (⟨.a_extension_bit_32, .parse_opcode, 20⟩, .a_extension_test_a, .a_decode_test),
  (⟨.a_extension_bit_32, .parse_rd, 0⟩, .a_extension_test_a, .a_decode_test),
  (⟨.a_extension_bit_32, .parse_rs1, 0⟩, .a_extension_test_a, .a_decode_test),
  (⟨.a_extension_bit_32, .parse_rs2, 0⟩, .a_extension_test_a, .a_decode_test),
  (⟨.a_extension_bit_32, .parse_rs2, 1⟩, .a_extension_test_a, .a_decode_test),
  (⟨.a_extension_bit_32, .parse_imm, 0⟩, .a_extension_test_a, .a_decode_test),
  (⟨.base_i_bit_32, .parse_opcode, 0⟩, .base_i_test_basei, .basei_decode_test),
  (⟨.base_i_bit_32, .parse_opcode, 1⟩, .base_i_test_basei, .basei_decode_test),
  (⟨.base_i_bit_32, .parse_opcode, 2⟩, .lib_tests, .usize_try_from_test),
  (⟨.base_i_bit_32, .parse_opcode, 4⟩, .base_i_test_basei, .basei_decode_test),
  (⟨.base_i_bit_32, .parse_opcode, 5⟩, .base_i_test_basei, .basei_decode_test),
  (⟨.base_i_bit_32, .parse_opcode, 7⟩, .base_i_test_basei, .basei_decode_test),
  (⟨.base_i_bit_32, .parse_opcode, 9⟩, .base_i_test_basei, .basei_decode_test),
  (⟨.base_i_bit_32, .parse_opcode, 12⟩, .base_i_test_basei, .basei_decode_test),
  (⟨.base_i_bit_32, .parse_opcode, 16⟩, .base_i_test_basei, .basei_decode_test),
  (⟨.base_i_bit_32, .parse_opcode, 21⟩, .base_i_test_basei, .basei_decode_test),
  (⟨.base_i_bit_32, .parse_opcode, 22⟩, .base_i_test_basei, .basei_decode_test),
  (⟨.base_i_bit_32, .parse_opcode, 27⟩, .base_i_test_basei, .basei_decode_test),
  (⟨.base_i_bit_32, .parse_opcode, 28⟩, .base_i_test_basei, .basei_decode_test),
  (⟨.base_i_bit_32, .parse_opcode, 38⟩, .base_i_test_basei, .basei_decode_test),
  (⟨.base_i_bit_32, .parse_opcode, 51⟩, .base_i_test_basei, .basei_decode_test),
  (⟨.base_i_bit_32, .parse_opcode, 52⟩, .base_i_test_basei, .basei_decode_test),
  (⟨.base_i_bit_32, .parse_opcode, 54⟩, .base_i_test_basei, .basei_decode_test),
  (⟨.base_i_bit_32, .parse_opcode, 58⟩, .base_i_test_basei, .basei_decode_test),
  (⟨.base_i_bit_32, .parse_opcode, 67⟩, .base_i_test_basei, .basei_decode_test),
  (⟨.base_i_bit_32, .parse_opcode, 68⟩, .base_i_test_basei, .basei_decode_test),
  (⟨.base_i_bit_32, .parse_opcode, 69⟩, .base_i_test_basei, .basei_decode_test),
  (⟨.base_i_bit_32, .parse_opcode, 70⟩, .base_i_test_basei, .basei_decode_test),
  (⟨.base_i_bit_32, .parse_opcode, 94⟩, .lib_tests, .usize_try_from_test),
  (⟨.base_i_bit_32, .parse_rd, 0⟩, .lib_tests, .usize_try_from_test),
  (⟨.base_i_bit_32, .parse_rd, 1⟩, .base_i_test_basei, .basei_decode_test),
  (⟨.base_i_bit_32, .parse_rs1, 0⟩, .base_i_test_basei, .basei_decode_test),
  (⟨.base_i_bit_32, .parse_rs1, 1⟩, .lib_tests, .usize_try_from_test),
  (⟨.base_i_bit_32, .parse_rs2, 0⟩, .base_i_test_basei, .basei_decode_test),
  (⟨.base_i_bit_32, .parse_rs2, 1⟩, .lib_tests, .usize_try_from_test),
  (⟨.base_i_bit_32, .parse_imm, 0⟩, .base_i_test_basei, .basei_decode_test),
  (⟨.base_i_bit_32, .parse_imm, 1⟩, .lib_tests, .usize_try_from_test),
  (⟨.base_i_bit_32, .parse_imm, 2⟩, .base_i_test_basei, .basei_decode_test),
  (⟨.base_i_bit_32, .parse_imm, 3⟩, .base_i_test_basei, .basei_decode_test),
  (⟨.base_i_bit_32, .parse_imm, 4⟩, .base_i_test_basei, .basei_decode_test),
  (⟨.base_i_bit_32, .parse_imm, 9⟩, .base_i_test_basei, .basei_decode_test),
  (⟨.c_extension_bit_16, .quadrant0, 3⟩, .c_extension_test_c, .c_decode_test),
  (⟨.c_extension_bit_16, .quadrant1, 0⟩, .c_extension_test_c, .c_decode_test),
  (⟨.c_extension_bit_16, .quadrant1, 1⟩, .c_extension_test_c, .c_decode_test),
  (⟨.c_extension_bit_16, .quadrant1, 6⟩, .c_extension_test_c, .c_decode_test),
  (⟨.c_extension_bit_16, .quadrant1, 7⟩, .c_extension_test_c, .c_decode_test),
  (⟨.c_extension_bit_16, .quadrant1, 8⟩, .c_extension_test_c, .c_decode_test),
  (⟨.c_extension_bit_16, .quadrant1, 9⟩, .c_extension_test_c, .c_decode_test),
  (⟨.c_extension_bit_16, .quadrant1, 10⟩, .c_extension_test_c, .c_decode_test),
  (⟨.c_extension_bit_16, .quadrant1, 11⟩, .c_extension_test_c, .c_decode_test),
  (⟨.c_extension_bit_16, .quadrant1, 12⟩, .c_extension_test_c, .c_decode_test),
  (⟨.c_extension_bit_16, .quadrant1, 27⟩, .c_extension_test_c, .c_decode_test),
  (⟨.c_extension_bit_16, .quadrant1, 29⟩, .c_extension_test_c, .c_decode_test),
  (⟨.c_extension_bit_16, .quadrant2, 3⟩, .lib_tests, .usize_try_from_test),
  (⟨.c_extension_bit_16, .quadrant2, 4⟩, .lib_tests, .usize_try_from_test),
  (⟨.c_extension_bit_16, .quadrant2, 5⟩, .c_extension_test_c, .c_decode_test),
  (⟨.c_extension_bit_16, .quadrant2, 6⟩, .lib_tests, .usize_try_from_test),
  (⟨.c_extension_bit_16, .quadrant2, 7⟩, .c_extension_test_c, .c_decode_test),
  (⟨.c_extension_bit_16, .quadrant2, 8⟩, .c_extension_test_c, .c_decode_test),
  (⟨.c_extension_bit_16, .parse_opcode, 1⟩, .lib_tests, .usize_try_from_test),
  (⟨.c_extension_bit_16, .parse_opcode, 2⟩, .c_extension_test_c, .c_decode_test),
  (⟨.c_extension_bit_16, .parse_opcode, 3⟩, .c_extension_test_c, .c_decode_test),
  (⟨.c_extension_bit_16, .parse_opcode, 4⟩, .lib_tests, .usize_try_from_test),
  (⟨.c_extension_bit_16, .parse_rd, 1⟩, .c_extension_test_c, .c_decode_test),
  (⟨.c_extension_bit_16, .parse_rd, 2⟩, .c_extension_test_c, .c_decode_test),
  (⟨.c_extension_bit_16, .parse_rd, 3⟩, .lib_tests, .usize_try_from_test),
  (⟨.c_extension_bit_16, .parse_rd, 4⟩, .c_extension_test_c, .c_decode_test),
  (⟨.c_extension_bit_16, .parse_rs1, 0⟩, .c_extension_test_c, .c_decode_test),
  (⟨.c_extension_bit_16, .parse_rs1, 1⟩, .c_extension_test_c, .c_decode_test),
  (⟨.c_extension_bit_16, .parse_rs1, 2⟩, .c_extension_test_c, .c_decode_test),
  (⟨.c_extension_bit_16, .parse_rs1, 3⟩, .c_extension_test_c, .c_decode_test),
  (⟨.c_extension_bit_16, .parse_rs1, 4⟩, .lib_tests, .usize_try_from_test),
  (⟨.c_extension_bit_16, .parse_rs2, 0⟩, .c_extension_test_c, .c_decode_test),
  (⟨.c_extension_bit_16, .parse_rs2, 2⟩, .lib_tests, .usize_try_from_test),
  (⟨.c_extension_bit_16, .parse_rs2, 3⟩, .c_extension_test_c, .c_decode_test),
  (⟨.c_extension_bit_16, .parse_imm, 1⟩, .c_extension_test_c, .c_decode_test),
  (⟨.c_extension_bit_16, .parse_imm, 3⟩, .c_extension_test_c, .c_decode_test),
  (⟨.c_extension_bit_16, .parse_imm, 4⟩, .c_extension_test_c, .c_decode_test),
  (⟨.c_extension_bit_16, .parse_imm, 5⟩, .c_extension_test_c, .c_decode_test),
  (⟨.c_extension_bit_16, .parse_imm, 6⟩, .c_extension_test_c, .c_decode_test),
  (⟨.c_extension_bit_16, .parse_imm, 7⟩, .c_extension_test_c, .c_decode_test),
  (⟨.c_extension_bit_16, .parse_imm, 8⟩, .c_extension_test_c, .c_decode_test),
  (⟨.c_extension_bit_16, .parse_imm, 9⟩, .c_extension_test_c, .c_decode_test),
  (⟨.c_extension_bit_16, .parse_imm, 15⟩, .lib_tests, .usize_try_from_test),
  (⟨.m_extension_bit_32, .parse_opcode, 0⟩, .m_extension_test_m, .m_decode_test),
  (⟨.m_extension_bit_32, .parse_opcode, 1⟩, .m_extension_test_m, .m_decode_test),
  (⟨.m_extension_bit_32, .parse_opcode, 6⟩, .m_extension_test_m, .m_decode_test),
  (⟨.m_extension_bit_32, .parse_opcode, 8⟩, .m_extension_test_m, .m_decode_test),
  (⟨.m_extension_bit_32, .parse_rd, 0⟩, .m_extension_test_m, .m_decode_test),
  (⟨.m_extension_bit_32, .parse_rs1, 0⟩, .m_extension_test_m, .m_decode_test),
  (⟨.m_extension_bit_32, .parse_rs2, 0⟩, .m_extension_test_m, .m_decode_test),
  (⟨.priv_extension_bit_32, .parse_opcode, 0⟩, .priv_extension_test_priv, .priv_decode_test),
  (⟨.priv_extension_bit_32, .parse_opcode, 2⟩, .priv_extension_test_priv, .priv_decode_test),
  (⟨.priv_extension_bit_32, .parse_rs1, 1⟩, .priv_extension_test_priv, .priv_decode_test),
  (⟨.priv_extension_bit_32, .parse_rs2, 1⟩, .priv_extension_test_priv, .priv_decode_test),
  (⟨.zicboz_extension_bit_32, .parse_opcode, 0⟩, .zicboz_extension_test_zicboz, .zicboz_decode_test),
  (⟨.zicboz_extension_bit_32, .parse_opcode, 1⟩, .zicboz_extension_test_zicboz, .zicboz_decode_test),
  (⟨.zicboz_extension_bit_32, .parse_opcode, 2⟩, .zicboz_extension_test_zicboz, .zicboz_decode_test),
  (⟨.zicboz_extension_bit_32, .parse_opcode, 3⟩, .zicboz_extension_test_zicboz, .zicboz_decode_test),
  (⟨.zicboz_extension_bit_32, .parse_rs1, 0⟩, .zicboz_extension_test_zicboz, .zicboz_decode_test),
  (⟨.zicfiss_extension_bit_32, .parse_opcode, 0⟩, .zicfiss_extension_test_zicfiss, .zicfiss_32bit_decode_test),
  (⟨.zicfiss_extension_bit_32, .parse_opcode, 1⟩, .zicfiss_extension_test_zicfiss, .zicfiss_32bit_decode_test),
  (⟨.zicfiss_extension_bit_32, .parse_opcode, 2⟩, .zicfiss_extension_test_zicfiss, .zicfiss_32bit_decode_test),
  (⟨.zicfiss_extension_bit_32, .parse_opcode, 3⟩, .zicfiss_extension_test_zicfiss, .zicfiss_32bit_decode_test),
  (⟨.zicfiss_extension_bit_32, .parse_opcode, 5⟩, .zicfiss_extension_test_zicfiss, .zicfiss_32bit_decode_test),
  (⟨.zicfiss_extension_bit_32, .parse_opcode, 8⟩, .zicfiss_extension_test_zicfiss, .zicfiss_32bit_decode_test),
  (⟨.zicfiss_extension_bit_32, .parse_opcode, 9⟩, .zicfiss_extension_test_zicfiss, .zicfiss_32bit_decode_test),
  (⟨.zicfiss_extension_bit_32, .parse_opcode, 10⟩, .zicfiss_extension_test_zicfiss, .zicfiss_32bit_decode_test),
  (⟨.zicfiss_extension_bit_32, .parse_rd, 0⟩, .zicfiss_extension_test_zicfiss, .zicfiss_32bit_decode_test),
  (⟨.zicfiss_extension_bit_32, .parse_rd, 1⟩, .zicfiss_extension_test_zicfiss, .zicfiss_32bit_decode_test),
  (⟨.zicfiss_extension_bit_32, .parse_rs1, 0⟩, .zicfiss_extension_test_zicfiss, .zicfiss_32bit_decode_test),
  (⟨.zicfiss_extension_bit_32, .parse_rs1, 1⟩, .zicfiss_extension_test_zicfiss, .zicfiss_32bit_decode_test),
  (⟨.zicfiss_extension_bit_32, .parse_rs2, 0⟩, .zicfiss_extension_test_zicfiss, .zicfiss_32bit_decode_test),
  (⟨.zicfiss_extension_bit_32, .parse_rs2, 1⟩, .zicfiss_extension_test_zicfiss, .zicfiss_32bit_decode_test),
  (⟨.zicfiss_extension_bit_32, .parse_imm, 0⟩, .zicfiss_extension_test_zicfiss, .zicfiss_32bit_decode_test),
  (⟨.zicfiss_extension_bit_16, .parse_opcode, 0⟩, .zicfiss_extension_test_zicfiss, .zicfiss_16),
  (⟨.zicfiss_extension_bit_16, .parse_opcode, 1⟩, .zicfiss_extension_test_zicfiss, .zicfiss_16),
  (⟨.zicfiss_extension_bit_16, .parse_rd, 0⟩, .zicfiss_extension_test_zicfiss, .zicfiss_16),
  (⟨.zicfiss_extension_bit_16, .parse_rd, 1⟩, .zicfiss_extension_test_zicfiss, .zicfiss_16),
  (⟨.zicntr_extension_bit_32, .parse_opcode, 0⟩, .zicntr_extension_test_zicntr, .zicntr_decode_test),
  (⟨.zicntr_extension_bit_32, .parse_opcode, 1⟩, .zicntr_extension_test_zicntr, .zicntr_decode_test),
  (⟨.zicntr_extension_bit_32, .parse_opcode, 3⟩, .zicntr_extension_test_zicntr, .zicntr_decode_test),
  (⟨.zicntr_extension_bit_32, .parse_rd, 0⟩, .zicntr_extension_test_zicntr, .zicntr_decode_test),
  (⟨.zicntr_extension_bit_32, .parse_rs1, 0⟩, .zicntr_extension_test_zicntr, .zicntr_decode_test),
  (⟨.zicntr_extension_bit_32, .parse_rs2, 0⟩, .zicntr_extension_test_zicntr, .zicntr_decode_test),
  (⟨.zicntr_extension_bit_32, .parse_imm, 0⟩, .zicntr_extension_test_zicntr, .zicntr_decode_test),
  (⟨.zicsr_extension_bit_32, .parse_opcode, 0⟩, .zicsr_extension_test_zicsr, .zicsr_decode_test),
  (⟨.zicsr_extension_bit_32, .parse_opcode, 2⟩, .zicsr_extension_test_zicsr, .zicsr_decode_test),
  (⟨.zicsr_extension_bit_32, .parse_opcode, 3⟩, .zicsr_extension_test_zicsr, .zicsr_decode_test),
  (⟨.zicsr_extension_bit_32, .parse_opcode, 5⟩, .zicsr_extension_test_zicsr, .zicsr_decode_test),
  (⟨.zicsr_extension_bit_32, .parse_rd, 0⟩, .zicsr_extension_test_zicsr, .zicsr_decode_test),
  (⟨.zicsr_extension_bit_32, .parse_rs1, 0⟩, .zicsr_extension_test_zicsr, .zicsr_decode_test),
  (⟨.zicsr_extension_bit_32, .parse_rs1, 1⟩, .zicsr_extension_test_zicsr, .zicsr_decode_test),
  (⟨.zicsr_extension_bit_32, .parse_rs2, 0⟩, .zicsr_extension_test_zicsr, .zicsr_decode_test),
  (⟨.zicsr_extension_bit_32, .parse_imm, 0⟩, .zicsr_extension_test_zicsr, .zicsr_decode_test),
  (⟨.zicsr_extension_bit_32, .parse_imm, 1⟩, .zicsr_extension_test_zicsr, .zicsr_decode_test),
  (⟨.zifencei_extension_bit_32, .parse_opcode, 0⟩, .zifencei_extension_test_zifenci, .zifenci_decode_test),
  (⟨.zifencei_extension_bit_32, .parse_rd, 0⟩, .zifencei_extension_test_zifenci, .zifenci_decode_test),
  (⟨.zifencei_extension_bit_32, .parse_rs1, 0⟩, .zifencei_extension_test_zifenci, .zifenci_decode_test),
  (⟨.zifencei_extension_bit_32, .parse_rs2, 0⟩, .zifencei_extension_test_zifenci, .zifenci_decode_test),
  (⟨.zifencei_extension_bit_32, .parse_imm, 0⟩, .zifencei_extension_test_zifenci, .zifenci_decode_test),
  (⟨.u16, .to_signed_nbit, 0⟩, .c_extension_test_c, .c_decode_test),
  (⟨.u16, .to_signed_nbit, 1⟩, .c_extension_test_c, .c_decode_test),
  (⟨.u32, .to_signed_nbit, 0⟩, .lib_tests, .usize_try_from_test),
  (⟨.u32, .to_signed_nbit, 1⟩, .base_i_test_basei, .basei_decode_test)]

/-- With a hole in every branch that is not reached, every test still runs to its end. -/
def holedRuns (md : Build) : Bool :=
  testCrate.all fun fn => !fn.params.isEmpty || match call holed md 7 fn.owner fn.name [] with
    | .val .unit => true
    | _ => false

/-- The test panics with `unreachable!()` in the branch. -/
def seenPanics (md : Build) (x : Branch × Id × Id) : Bool :=
  panics (call (swap x.1 .unreachable testCrate) md 7 x.2.1 x.2.2 [])

end Raki.Source
